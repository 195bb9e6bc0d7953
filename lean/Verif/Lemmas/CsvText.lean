import Verif.Model.CsvText
import Verif.Spec.TraceText
import Mathlib.Data.List.Induction
import Mathlib.Tactic.Tauto

/-!
# Lemmas about the splitting of the text of a trace file
-/

namespace DRAMPower
open Spec

namespace CsvParser

/-! ## Iterations -/

theorem skip_le (inp : List Char) (f : Char → Bool) (p : Nat) : p ≤ skip inp f p := Nat.le_add_right _ _

theorem skip_lt {inp : List Char} {f : Char → Bool} {p : Nat} {c : Char} (h : inp[p]? = some c) (hf : f c = true) : p < skip inp f p := by
  unfold skip
  have hp : p < inp.length := (List.getElem?_eq_some_iff.1 h).1
  rw [List.drop_eq_getElem_cons hp]
  have : inp[p] = c := (List.getElem?_eq_some_iff.1 h).2
  rw [this, List.takeWhile_cons_of_pos hf]
  simp

/-- Every iteration advances the position. -/
theorem step_lt {inp : List Char} {s s' : CsvParser} (h : step inp s = some s') : s.pos < inp.length ∧ s.pos < s'.pos := by
  unfold step at h
  cases hc : inp[s.pos]? with
  | none => rw [hc] at h; cases h
  | some c =>
    refine ⟨(List.getElem?_eq_some_iff.1 hc).1, ?_⟩
    rw [hc] at h
    dsimp only at h
    split at h
    · cases h; simp [pushField]
    · cases h
      show s.pos < afterNewline inp s.pos
      unfold afterNewline
      split
      · split <;> exact Nat.lt_add_of_pos_right (by omega)
      · exact Nat.lt_add_of_pos_right (by omega)
    · rename_i hf
      cases h
      show s.pos < skip inp _ (skip inp csvBlank s.pos)
      by_cases hb : csvBlank c = true
      · exact Nat.lt_of_lt_of_le (skip_lt hc hb) (skip_le _ _ _)
      · have : skip inp csvBlank s.pos = s.pos := by
          unfold skip
          rw [List.drop_eq_getElem_cons (List.getElem?_eq_some_iff.1 hc).1, (List.getElem?_eq_some_iff.1 hc).2,
            List.takeWhile_cons_of_neg hb]
          rfl
        rw [this]
        exact skip_lt hc (by simp [hf])
    · split at h
      · cases h
      · split at h <;> cases h <;> simp
    · split at h <;> cases h <;> simp

/-- From one state to another one by iterations. -/
inductive Reach (inp : List Char) : CsvParser → CsvParser → Prop
  | refl (s) : Reach inp s s
  | next {s s' s''} : step inp s = some s' → Reach inp s' s'' → Reach inp s s''

theorem Reach.trans {inp : List Char} {a b c : CsvParser} (h : Reach inp a b) (h' : Reach inp b c) : Reach inp a c := by
  induction h with
  | refl => exact h'
  | next e _ ih => exact .next e (ih h')

theorem loop_reach {inp : List Char} {s s' : CsvParser} (h : Reach inp s s') (he : step inp s' = none) :
    ∀ n, inp.length ≤ n + s.pos → loop inp n s = s' := by
  induction h with
  | refl s =>
    intro n _
    cases n with
    | zero => rfl
    | succ n => rw [loop, he]
  | @next s s1 s2 e _ ih =>
    intro n hn
    obtain ⟨h1, h2⟩ := step_lt e
    cases n with
    | zero => omega
    | succ n =>
      rw [loop, e]
      exact ih he n (by omega)

/-! ## One field -/

theorem blank_iff (c : Char) : csvBlank c = true ↔ c ∈ blanks := by simp [csvBlank, blanks]

theorem plain_flag {c : Char} (h : c ∉ [',', '"', '\n', '\r']) : csvFlag c = .notSpecial := by
  simp only [List.mem_cons, List.not_mem_nil, or_false, not_or] at h
  simp [csvFlag, h.1, h.2.1, h.2.2.1, h.2.2.2]

theorem blank_flag {c : Char} (h : c ∈ blanks) : csvFlag c = .notSpecial := by
  simp only [blanks, List.mem_cons, List.not_mem_nil, or_false] at h
  rcases h with rfl | rfl <;> decide

theorem takeWhile_append_stop {f : Char → Bool} : ∀ (l r : List Char), (∀ c ∈ l, f c = true) → (∀ c, r.head? = some c → f c = false) →
    (l ++ r).takeWhile f = l
  | [], [], _, _ => rfl
  | [], c :: r, _, h => by rw [List.nil_append, List.takeWhile_cons_of_neg (by simp [h c rfl])]
  | c :: l, r, h, h' => by
    rw [List.cons_append, List.takeWhile_cons_of_pos (h c (by simp)), takeWhile_append_stop l r (fun c hc => h c (by simp [hc])) h']

theorem skip_append {f : Char → Bool} (pre l r : List Char) (h : ∀ c ∈ l, f c = true) (h' : ∀ c, r.head? = some c → f c = false) :
    skip (pre ++ l ++ r) f pre.length = pre.length + l.length := by
  unfold skip
  rw [List.append_assoc, List.drop_left, takeWhile_append_stop l r h h']

theorem trimEnd_keep {inp : List Char} {j len : Nat} (h : len = 0 ∨ csvBlank (inp.getD j 'x') = false) : trimEnd inp j len = len := by
  cases len with
  | zero => rfl
  | succ len =>
    rcases h with h | h
    · cases h
    · rw [trimEnd, h]; rfl

/-- Trailing blanks are removed. -/
theorem trimEnd_blanks (pre v : List Char) (hv : ∀ c, v.getLast? = some c → c ∉ blanks) :
    ∀ (b post : List Char), (∀ c ∈ b, c ∈ blanks) →
      trimEnd (pre ++ v ++ b ++ post) (pre.length + v.length + b.length - 1) (v.length + b.length) = v.length := by
  intro b
  induction b using List.reverseRecOn with
  | nil =>
    intro post _
    apply trimEnd_keep
    rcases List.eq_nil_or_concat v with rfl | ⟨w, c, hw⟩
    · exact .inl rfl
    · rw [List.concat_eq_append] at hw
      subst hw
      refine .inr ?_
      have hc := hv c (by simp)
      have : (pre ++ (w ++ [c]) ++ [] ++ post).getD (pre.length + (w ++ [c]).length + ([] : List Char).length - 1) 'x' = c := by
        simp only [List.getD_eq_getElem?_getD, List.append_nil, List.length_append, List.length_singleton, List.length_nil, Nat.add_zero]
        rw [show pre ++ (w ++ [c]) ++ post = (pre ++ w) ++ c :: post by simp]
        rw [List.getElem?_append_right (by simp)]
        simp only [List.length_append]
        rw [show pre.length + (w.length + 1) - 1 - (pre.length + w.length) = 0 by omega]
        rfl
      rw [this]
      cases hb : csvBlank c
      · rfl
      · exact absurd ((blank_iff c).1 hb) hc
  | append_singleton b c ih =>
    intro post hb
    have h1 := ih (c :: post) (fun d hd => hb d (by simp [hd]))
    have e : (v.length + (b ++ [c]).length) = (v.length + b.length) + 1 := by simp; omega
    rw [e, trimEnd]
    have hc : (pre ++ v ++ (b ++ [c]) ++ post).getD (pre.length + v.length + (b ++ [c]).length - 1) 'x' = c := by
      rw [List.getD_eq_getElem?_getD, show pre ++ v ++ (b ++ [c]) ++ post = (pre ++ v ++ b) ++ c :: post by simp,
        List.getElem?_append_right (by simp; omega)]
      simp only [List.length_append, List.length_singleton]
      rw [show pre.length + v.length + (b.length + 1) - 1 - (pre.length + v.length + b.length) = 0 by omega]
      rfl
    rw [hc, if_pos ((blank_iff c).2 (hb c (by simp)))]
    have e2 : pre.length + v.length + (b ++ [c]).length - 1 - 1 = pre.length + v.length + b.length - 1 := by simp
    rw [e2, show pre ++ v ++ (b ++ [c]) ++ post = pre ++ v ++ b ++ c :: post by simp]
    exact h1

/-- The parser stands at the beginning of a field. -/
structure AtField (s : CsvParser) : Prop where
  q : s.quoteEscape = false
  d : s.doubleQuote = false
  f : s.fieldStart = none
  l : s.fieldLength = 0

/-- The end of the data, or a comma or line end. -/
def Ends (post : List Char) : Prop := ∀ c, post.head? = some c → c ∈ [',', '\n', '\r']

theorem ends_flag {c : Char} (h : c ∈ [',', '\n', '\r']) : csvFlag c = .delimiter ∨ csvFlag c = .newline := by
  simp only [List.mem_cons, List.not_mem_nil, or_false] at h
  rcases h with rfl | rfl | rfl <;> decide

theorem ends_not {c : Char} (h : c ∈ [',', '\n', '\r']) : csvBlank c = false ∧ csvFlag c ≠ .notSpecial := by
  simp only [List.mem_cons, List.not_mem_nil, or_false] at h
  rcases h with rfl | rfl | rfl <;> decide

/-- A field is read with at most one iteration; what is then pushed is its value. -/
theorem field_reach {v t : List Char} (h : WritesField v t) (pre post : List Char) (hp : Ends post) (s : CsvParser) (hs : AtField s)
    (hpos : s.pos = pre.length) (hr : s.rowStart ≤ pre.length) :
    ∃ s', Reach (pre ++ t ++ post) s s' ∧ s'.pos = pre.length + t.length ∧ s'.quoteEscape = false ∧ s'.doubleQuote = false ∧
      s'.bomScan = s.bomScan ∧ s'.fields = s.fields ∧ s'.rows = s.rows ∧ s'.rowStart = s.rowStart ∧
      getField (pre ++ t ++ post) s' = v ∧ s'.fieldLength = v.length := by
  obtain ⟨a, v, b, ha, hv, hb⟩ := h
  by_cases ht : a ++ v ++ b = []
  · have hv' : v = [] := by simp at ht; exact ht.2.1
    refine ⟨s, .refl _, by simp [hpos, ht], hs.q, hs.d, rfl, rfl, rfl, rfl, ?_, by rw [hs.l, hv']; rfl⟩
    simp [getField, hs.d, hs.l, hv']
  -- the first character
  have hinp : pre ++ (a ++ v ++ b) ++ post = pre ++ a ++ v ++ b ++ post := by simp
  rw [hinp]
  obtain ⟨c, hc⟩ : ∃ c, (a ++ v ++ b).head? = some c := by
    cases h : a ++ v ++ b with
    | nil => exact absurd h ht
    | cons c l => exact ⟨c, rfl⟩
  have hcm : c ∈ a ++ v ++ b := List.mem_of_mem_head? (by rw [hc]; rfl)
  have hflag : ∀ c ∈ a ++ v ++ b, csvFlag c = .notSpecial := by
    intro c hc
    simp only [List.mem_append] at hc
    rcases hc with (hc | hc) | hc
    · exact blank_flag (ha c hc)
    · exact plain_flag (hv.1 c hc)
    · exact blank_flag (hb c hc)
  have hget : (pre ++ a ++ v ++ b ++ post)[s.pos]? = some c := by
    rw [← hinp, hpos, List.append_assoc, List.getElem?_append_right (Nat.le_refl _), Nat.sub_self,
      ← List.head?_eq_getElem?, List.head?_append, hc]
    rfl
  have hstep : step (pre ++ a ++ v ++ b ++ post) s = some (parseField (pre ++ a ++ v ++ b ++ post) s) := by
    unfold step
    rw [hget]
    simp only [compoundFlag, hs.q, hflag c hcm, Bool.false_eq_true, if_false]
  have hcomp : ∀ c, s.compoundFlag c = csvFlag c := fun c => by simp [compoundFlag, hs.q]
  refine ⟨_, .next hstep (.refl _), ?_⟩
  have hpostb : ∀ c, post.head? = some c → csvBlank c = false := fun c hc => (ends_not (hp c hc)).1
  have hpostf : ∀ c, post.head? = some c → decide (s.compoundFlag c = .notSpecial) = false := fun c hc => by
    rw [hcomp]; simp [(ends_not (hp c hc)).2]
  have hab : ∀ c ∈ a, csvBlank c = true := fun c hc => (blank_iff c).2 (ha c hc)
  have hbb : ∀ c ∈ b, csvBlank c = true := fun c hc => (blank_iff c).2 (hb c hc)
  by_cases hv0 : v = []
  · -- nothing but blanks
    subst hv0
    have e1 : skip (pre ++ a ++ [] ++ b ++ post) csvBlank s.pos = pre.length + (a ++ b).length := by
      rw [hpos, show pre ++ a ++ [] ++ b ++ post = pre ++ (a ++ b) ++ post by simp]
      exact skip_append pre (a ++ b) post (fun c hc => (List.mem_append.1 hc).elim (hab c) (hbb c)) hpostb
    have e2 : skip (pre ++ a ++ [] ++ b ++ post) (fun c => decide (s.compoundFlag c = .notSpecial)) (pre.length + (a ++ b).length) =
        pre.length + (a ++ b).length := by
      have := skip_append (f := fun c => decide (s.compoundFlag c = .notSpecial)) (pre ++ (a ++ b)) [] post (by simp) hpostf
      rw [List.append_nil, List.length_append] at this
      rw [show pre ++ a ++ [] ++ b ++ post = pre ++ (a ++ b) ++ post by simp]
      exact this
    have hz : pre.length + (a ++ b).length - (pre.length + (a ++ b).length - s.rowStart + s.rowStart) = 0 := by omega
    refine ⟨?_, hs.q, hs.d, rfl, rfl, rfl, rfl, ?_, ?_⟩
    · simp only [parseField, e1, e2]; simp
    · simp only [getField, parseField, hs.d, hs.f, e1, e2, Option.getD_none, hz, trimEnd]; simp
    · simp only [parseField, hs.f, e1, e2, Option.getD_none, hz, trimEnd]; simp
  · have hvb : ∀ c, (v ++ (b ++ post)).head? = some c → csvBlank c = false := by
      intro c hc
      cases v with
      | nil => exact absurd rfl hv0
      | cons d v =>
        have hd : d = c := by simpa using hc
        have := hv.2.1 d rfl
        rw [hd] at this
        cases hb' : csvBlank c
        · rfl
        · exact absurd ((blank_iff c).1 hb') this
    have e1 : skip (pre ++ a ++ v ++ b ++ post) csvBlank s.pos = pre.length + a.length := by
      rw [hpos, show pre ++ a ++ v ++ b ++ post = pre ++ a ++ (v ++ (b ++ post)) by simp]
      exact skip_append pre a _ hab hvb
    have e2 : skip (pre ++ a ++ v ++ b ++ post) (fun c => decide (s.compoundFlag c = .notSpecial)) (pre.length + a.length) =
        pre.length + a.length + (v.length + b.length) := by
      have := skip_append (f := fun c => decide (s.compoundFlag c = .notSpecial)) (pre ++ a) (v ++ b) post
        (fun c hc => by
          rw [hcomp]
          simpa using hflag c (by simp only [List.mem_append] at hc ⊢; tauto)) hpostf
      rw [List.length_append, List.length_append] at this
      rw [show pre ++ a ++ v ++ b ++ post = pre ++ a ++ (v ++ b) ++ post by simp]
      exact this
    have e3 : pre.length + a.length + (v.length + b.length) - (pre.length + a.length - s.rowStart + s.rowStart) = v.length + b.length := by
      omega
    have e4 : trimEnd (pre ++ a ++ v ++ b ++ post) (pre.length + a.length + (v.length + b.length) - 1) (v.length + b.length) = v.length := by
      have := trimEnd_blanks (pre ++ a) v hv.2.2 b post hb
      rw [List.length_append] at this
      rw [← Nat.add_assoc]
      exact this
    refine ⟨?_, hs.q, hs.d, rfl, rfl, rfl, rfl, ?_, ?_⟩
    · simp only [parseField, e1, e2]; simp; omega
    · simp only [getField, parseField, hs.d, hs.f, e1, e2, Option.getD_none, Option.getD_some, e3, e4]
      rw [show s.rowStart + (pre.length + a.length - s.rowStart) = (pre ++ a).length by simp; omega,
        show pre ++ a ++ v ++ b ++ post = (pre ++ a) ++ (v ++ (b ++ post)) by simp, List.drop_left, List.take_left]
      simp
    · simp only [parseField, hs.f, e1, e2, Option.getD_none, e3, e4]

/-! ## Rows and lines -/

theorem delimiter_step {inp : List Char} {s : CsvParser} (h : inp[s.pos]? = some ',') (hq : s.quoteEscape = false) :
    step inp s = some { pushField inp s with pos := s.pos + 1 } := by
  unfold step
  rw [h]
  have : s.compoundFlag ',' = .delimiter := by rw [compoundFlag, hq]; decide
  simp only [this]

theorem writesRow_ne {vs : List (List Char)} {t : List Char} (h : WritesRow vs t) : vs ≠ [] := by cases h <;> simp

/-- The fields of a row, the last one still to be pushed. -/
theorem row_reach {vs : List (List Char)} {t : List Char} (h : WritesRow vs t) : ∀ (pre post : List Char), Ends post →
    ∀ s : CsvParser, AtField s → s.pos = pre.length → s.rowStart ≤ pre.length →
    ∃ s', Reach (pre ++ t ++ post) s s' ∧ s'.pos = pre.length + t.length ∧ s'.quoteEscape = false ∧ s'.doubleQuote = false ∧
      s'.bomScan = s.bomScan ∧ s'.fields ++ [getField (pre ++ t ++ post) s'] = s.fields ++ vs ∧ s'.rows = s.rows ∧
      s'.rowStart = s.rowStart ∧ some s'.fieldLength = vs.getLast?.map List.length := by
  induction h with
  | @one v t h =>
    intro pre post hp s hs hpos hr
    obtain ⟨s', h1, h2, h3, h4, h5, h6, h7, h8, h9, h10⟩ := field_reach h pre post hp s hs hpos hr
    exact ⟨s', h1, h2, h3, h4, h5, by rw [h6, h9], h7, h8, by simp [h10]⟩
  | @more v t vs ts h hw ih =>
    intro pre post hp s hs hpos hr
    obtain ⟨s1, h1, h2, h3, h4, h5, h6, h7, h8, h9, h10⟩ := field_reach h pre (',' :: ts ++ post)
      (fun c hc => by simp only [List.cons_append, List.head?_cons, Option.some.injEq] at hc; subst hc; simp) s hs hpos hr
    have e : pre ++ (t ++ ',' :: ts) ++ post = pre ++ t ++ (',' :: ts ++ post) := by simp
    have e' : pre ++ (t ++ ',' :: ts) ++ post = (pre ++ t ++ [',']) ++ ts ++ post := by simp
    have hd : (pre ++ t ++ (',' :: ts ++ post))[s1.pos]? = some ',' := by
      rw [h2, ← List.length_append, List.cons_append, List.getElem?_append_right (Nat.le_refl _), Nat.sub_self]
      rfl
    have hstep := delimiter_step hd h3
    obtain ⟨s2, g1, g2, g3, g4, g5, g6, g7, g8, g9⟩ := ih (pre ++ t ++ [',']) post hp
      { pushField (pre ++ t ++ (',' :: ts ++ post)) s1 with pos := s1.pos + 1 } ⟨h3, rfl, rfl, rfl⟩ (by simp [h2]; omega)
      (by show s1.rowStart ≤ _; rw [h8]; simp; omega)
    rw [← e', e] at g1 g6
    rw [e]
    refine ⟨s2, h1.trans (.next hstep g1), by rw [g2]; simp; omega, g3, g4, by rw [g5]; exact h5, ?_, by rw [g7]; exact h7,
      by rw [g8]; exact h8, ?_⟩
    · rw [g6]
      show s1.fields ++ [getField _ s1] ++ vs = s.fields ++ v :: vs
      rw [h6, h9]; simp
    · rw [g9]
      cases vs with
      | nil => exact absurd rfl (writesRow_ne hw)
      | cons w vs => rfl

/-- What follows a line end: nothing, or something that the line end does not swallow. -/
def Breaks (e post : List Char) : Prop :=
  (∃ c, e = [c] ∧ csvFlag c = .newline ∧ ∀ d, post.head? = some d → csvFlag d ≠ .newline) ∨
  ∃ c d, e = [c, d] ∧ csvFlag c = .newline ∧ csvFlag d = .newline

theorem newline_mem {c : Char} (h : csvFlag c = .newline) : c ∈ [',', '\n', '\r'] := by
  unfold csvFlag at h
  split at h
  · cases h
  · split at h
    · rename_i h'
      rcases h' with rfl | rfl <;> simp
    · split at h <;> cases h

theorem Breaks.ends {e post : List Char} (h : Breaks e post) : Ends (e ++ post) := by
  intro c hc
  rcases h with ⟨d, rfl, hd, -⟩ | ⟨d, d', rfl, hd, -⟩ <;>
  · simp only [List.cons_append, List.head?_cons, Option.some.injEq] at hc
    subst hc
    exact newline_mem hd

theorem newline_step {pre e post : List Char} {s : CsvParser} (hb : Breaks e post) (hpos : s.pos = pre.length) (hq : s.quoteEscape = false) :
    step (pre ++ e ++ post) s = some { pushRow (pushField (pre ++ e ++ post) s) with
      pos := pre.length + e.length, rowStart := pre.length + e.length, fields := [] } := by
  have hget : ∀ k, (pre ++ e ++ post)[pre.length + k]? = (e ++ post)[k]? := fun k => by
    rw [List.append_assoc, List.getElem?_append_right (Nat.le_add_right _ _), Nat.add_sub_cancel_left]
  have hcomp : ∀ c, s.compoundFlag c = csvFlag c := fun c => by simp [compoundFlag, hq]
  have hafter : afterNewline (pre ++ e ++ post) pre.length = pre.length + e.length := by
    unfold afterNewline
    rw [hget 1]
    rcases hb with ⟨c, rfl, hc, hp⟩ | ⟨c, d, rfl, hc, hd⟩
    · rw [List.cons_append, List.nil_append, List.getElem?_cons_succ, ← List.head?_eq_getElem?]
      cases hh : post.head? with
      | none => rfl
      | some d => simp [hp d hh]
    · simp [hd]
  have h0 : ∃ c, (pre ++ e ++ post)[s.pos]? = some c ∧ csvFlag c = .newline := by
    have := hget 0
    rw [Nat.add_zero, ← hpos] at this
    rw [this]
    rcases hb with ⟨c, rfl, hc, -⟩ | ⟨c, d, rfl, hc, -⟩ <;> exact ⟨c, rfl, hc⟩
  obtain ⟨c, hc, hf⟩ := h0
  unfold step
  rw [hc]
  simp only [hcomp, hf]
  rw [hpos, hafter]

/-- The parser stands at the beginning of a row. -/
structure AtRow (pre : List Char) (s : CsvParser) : Prop extends AtField s where
  fs : s.fields = []
  pos : s.pos = pre.length
  start : s.rowStart ≤ pre.length

/-- A row with its line end. -/
theorem line_reach {vs : List (List Char)} {t e : List Char} (h : WritesRow vs t) (pre post : List Char) (hb : Breaks e post)
    (s : CsvParser) (hs : AtRow pre s) :
    ∃ s', Reach (pre ++ t ++ e ++ post) s s' ∧ AtRow (pre ++ t ++ e) s' ∧ s'.rowStart = (pre ++ t ++ e).length ∧
      s'.rows = s.rows ++ [vs] ∧ s'.bomScan = s.bomScan := by
  obtain ⟨s1, h1, h2, h3, h4, h5, h6, h7, h8, -⟩ := row_reach h pre (e ++ post) hb.ends s hs.toAtField hs.pos hs.start
  have e1 : pre ++ t ++ (e ++ post) = pre ++ t ++ e ++ post := by simp
  rw [e1] at h1 h6
  refine ⟨_, h1.trans (.next (newline_step hb (by rw [h2, List.length_append]) h3) (.refl _)), ?_, ?_, ?_, h5⟩
  · refine { q := h3, d := rfl, f := rfl, l := rfl, fs := rfl, pos := ?_, start := ?_ }
    · exact List.length_append.symm
    · exact Nat.le_of_eq List.length_append.symm
  · exact List.length_append.symm
  · show s1.rows ++ [(pushField _ s1).fields] = s.rows ++ [vs]
    rw [h7]
    show s.rows ++ [s1.fields ++ [getField _ s1]] = _
    rw [h6, hs.fs]; rfl

theorem row_first {vs : List (List Char)} {t : List Char} (h : WritesRow vs t) :
    ∀ c ∈ t, csvFlag c ≠ .newline ∧ csvFlag c ≠ .quote := by
  have field : ∀ {v t}, WritesField v t → ∀ c ∈ t, csvFlag c = .notSpecial := by
    intro v t h
    obtain ⟨a, v, b, ha, hv, hb⟩ := h
    intro c hc
    simp only [List.mem_append] at hc
    rcases hc with (hc | hc) | hc
    · exact blank_flag (ha c hc)
    · exact plain_flag (hv.1 c hc)
    · exact blank_flag (hb c hc)
  induction h with
  | one h => intro c hc; rw [field h c hc]; simp
  | more h _ ih =>
    intro c hc
    simp only [List.mem_append, List.mem_cons] at hc
    rcases hc with hc | rfl | hc
    · rw [field h c hc]; simp
    · decide
    · exact ih c hc

/-! ## Whole texts -/

theorem emptyLast_iff (inp : List Char) : emptyLast inp = true ↔ inp.getLast? = some ',' := by
  unfold emptyLast
  cases inp.getLast? with
  | none => simp
  | some c =>
    simp only [decide_eq_true_eq, Option.some.injEq]
    unfold csvFlag
    constructor
    · intro h
      split at h
      · assumption
      · split at h
        · cases h
        · split at h <;> cases h
    · rintro rfl; rfl

theorem endFeed_last {inp : List Char} {s : CsvParser} (h : 0 < s.fieldLength ∨ inp.getLast? = some ',') :
    (endFeed inp s).rows = s.rows ++ [s.fields ++ [getField inp s]] := by
  unfold endFeed
  simp only [emptyLast_iff, h, if_true]
  rw [if_pos (by simp [pushField])]
  rfl

theorem endFeed_none {inp : List Char} {s : CsvParser} (h : s.fieldLength = 0) (hf : s.fields = []) (hl : inp.getLast? ≠ some ',') :
    (endFeed inp s).rows = s.rows := by
  unfold endFeed
  simp only [emptyLast_iff, h, hl, Nat.lt_irrefl, or_self, if_false, hf, List.length_nil]

theorem step_end {inp : List Char} {s : CsvParser} (h : s.pos = inp.length) : step inp s = none := by
  unfold step
  rw [h, List.getElem?_eq_none (Nat.le_refl _)]

theorem lines_head {ends : List (List Char)} {rows : List (List (List Char))} {ts : List Char} (h : Lines ends rows ts) :
    ∀ d, ts.head? = some d → csvFlag d ≠ .newline := by
  intro d hd
  cases h with
  | done => cases hd
  | last hw _ _ => exact (row_first hw d (List.mem_of_mem_head? (by rw [hd]; rfl))).1
  | @line row t e rows ts hw ht _ _ =>
    refine (row_first hw d ?_).1
    cases t with
    | nil => exact absurd rfl ht
    | cons c t =>
      simp only [List.cons_append, List.head?_cons, Option.some.injEq] at hd
      subst hd
      simp

/-- Line ends the parser takes for one line end each. -/
def oneLineEnd (e : List Char) : Prop := (∃ c, e = [c] ∧ csvFlag c = .newline) ∨ ∃ c d, e = [c, d] ∧ csvFlag c = .newline ∧ csvFlag d = .newline

theorem breaks_of {e post : List Char} (h : oneLineEnd e) (hp : ∀ d, post.head? = some d → csvFlag d ≠ .newline) : Breaks e post := by
  rcases h with ⟨c, rfl, hc⟩ | ⟨c, d, rfl, hc, hd⟩
  · exact .inl ⟨c, rfl, hc, hp⟩
  · exact .inr ⟨c, d, rfl, hc, hd⟩

theorem lines_reach {ends : List (List Char)} (hends : ∀ e ∈ ends, oneLineEnd e) {rows : List (List (List Char))} {ts : List Char}
    (h : Lines ends rows ts) : ∀ (pre : List Char), pre.getLast? ≠ some ',' → ∀ s : CsvParser, AtRow pre s →
    ∃ s', Reach (pre ++ ts) s s' ∧ step (pre ++ ts) s' = none ∧ (endFeed (pre ++ ts) s').rows = s.rows ++ rows := by
  induction h with
  | done =>
    intro pre hpre s hs
    rw [List.append_nil]
    exact ⟨s, .refl _, step_end hs.pos, by rw [endFeed_none hs.l hs.fs hpre, List.append_nil]⟩
  | @last row t hw ht hk =>
    intro pre hpre s hs
    obtain ⟨s1, h1, h2, h3, h4, h5, h6, h7, h8, h9⟩ := row_reach hw pre [] (by simp [Ends]) s hs.toAtField hs.pos hs.start
    rw [List.append_nil] at h1 h6
    refine ⟨s1, h1, step_end (by rw [h2]; simp), ?_⟩
    rw [endFeed_last, h7, h6, hs.fs, List.nil_append]
    rcases hk with ⟨v, hv, hne⟩ | hk
    · rw [hv] at h9
      have : s1.fieldLength = v.length := by simpa using h9
      rw [this]
      exact .inl (List.length_pos_iff.2 hne)
    · refine .inr ?_
      rw [List.getLast?_append, hk]; rfl
  | @line row t e rows ts hw ht he hl ih =>
    intro pre hpre s hs
    have hb := breaks_of (hends e he) (lines_head hl)
    obtain ⟨s1, h1, h2, h3, h4, h5⟩ := line_reach hw pre ts hb s hs
    have hlast : (pre ++ t ++ e).getLast? ≠ some ',' := by
      rcases hends e he with ⟨c, rfl, hc⟩ | ⟨c, d, rfl, hc, hd⟩
      · rw [List.getLast?_append]
        intro h
        simp only [List.getLast?_singleton, Option.some_or, Option.some.injEq] at h
        subst h
        revert hc; decide
      · rw [List.getLast?_append]
        intro h
        simp only [List.getLast?_cons_cons, List.getLast?_singleton, Option.some_or, Option.some.injEq] at h
        subst h
        revert hd; decide
    obtain ⟨s2, g1, g2, g3⟩ := ih (pre ++ t ++ e) hlast s1 h2
    have e1 : pre ++ (t ++ e ++ ts) = pre ++ t ++ e ++ ts := by simp
    rw [e1]
    exact ⟨s2, h1.trans g1, g2, by rw [g3, h4]; simp⟩

/-! ## Chunks -/

theorem loop_reach' {inp : List Char} {s s' : CsvParser} (h : Reach inp s s') : ∀ n, inp.length ≤ n + s.pos →
    ∃ m, inp.length ≤ m + s'.pos ∧ loop inp n s = loop inp m s' := by
  induction h with
  | refl s => intro n hn; exact ⟨n, hn, rfl⟩
  | @next s s1 s2 e _ ih =>
    intro n hn
    obtain ⟨h1, h2⟩ := step_lt e
    cases n with
    | zero => omega
    | succ n =>
      obtain ⟨m, g1, g2⟩ := ih n (by omega)
      exact ⟨m, g1, by rw [loop, e]; exact g2⟩

/-- Without line ends and quotation marks no row is completed. -/
theorem loop_inside {inp : List Char} : ∀ (n : Nat) (s : CsvParser), s.quoteEscape = false → s.doubleQuote = false →
    (∀ c ∈ inp.drop s.pos, csvFlag c ≠ .newline ∧ csvFlag c ≠ .quote) →
    (loop inp n s).rows = s.rows ∧ (loop inp n s).rowStart = s.rowStart ∧ (loop inp n s).doubleQuote = false ∧
      (loop inp n s).bomScan = s.bomScan
  | 0, s, _, hd, _ => ⟨rfl, rfl, hd, rfl⟩
  | n + 1, s, hq, hd, h => by
    rw [loop]
    cases hstep : step inp s with
    | none => exact ⟨rfl, rfl, hd, rfl⟩
    | some s' =>
      have hlt := step_lt hstep
      have hdrop : ∀ c ∈ inp.drop s'.pos, c ∈ inp.drop s.pos := by
        intro c hc
        have : inp.drop s'.pos = (inp.drop s.pos).drop (s'.pos - s.pos) := by rw [List.drop_drop]; congr 1; omega
        rw [this] at hc
        exact List.mem_of_mem_drop hc
      have hc : ∃ c, inp[s.pos]? = some c ∧ csvFlag c ≠ .newline ∧ csvFlag c ≠ .quote := by
        refine ⟨inp[s.pos]'hlt.1, List.getElem?_eq_getElem hlt.1, h _ ?_⟩
        rw [List.drop_eq_getElem_cons hlt.1]; exact List.mem_cons_self
      obtain ⟨c, hc, h1, h2⟩ := hc
      have hs' : s'.quoteEscape = false ∧ s'.doubleQuote = false ∧ s'.rows = s.rows ∧ s'.rowStart = s.rowStart ∧ s'.bomScan = s.bomScan := by
        unfold step at hstep
        rw [hc] at hstep
        have hcomp : s.compoundFlag c = csvFlag c := by simp [compoundFlag, hq]
        simp only [hcomp] at hstep
        split at hstep
        · cases hstep; exact ⟨hq, rfl, rfl, rfl, rfl⟩
        · rename_i hx; exact absurd hx h1
        · cases hstep; exact ⟨hq, hd, rfl, rfl, rfl⟩
        · rename_i hx
          exfalso
          revert hx
          unfold csvFlag
          split
          · simp
          · split
            · simp
            · split <;> simp
        · rename_i hx; exact absurd hx h2
      obtain ⟨g1, g2, g3, g4⟩ := loop_inside n s' hs'.1 hs'.2.1 (fun c hc => h c (hdrop c hc))
      exact ⟨by rw [g1, hs'.2.2.1], by rw [g2, hs'.2.2.2.1], g3, by rw [g4, hs'.2.2.2.2]⟩

end CsvParser
end DRAMPower

namespace DRAMPower
open Spec CsvParser

theorem shortLines_lines {n : Nat} {rows : List (List (List Char))} {ts : List Char} (h : ShortLines n rows ts) :
    Lines [['\n']] rows ts := by
  induction h with
  | done => exact .done
  | last h1 h2 h3 _ => exact .last h1 h2 h3
  | line h1 h2 _ _ ih => exact .line h1 h2 (by simp) ih

/-- Complete lines only. -/
inductive FullLines : List (List (List Char)) → List Char → Prop
  | done : FullLines [] []
  | line {row t rows ts} : WritesRow row t → t ≠ [] → FullLines rows ts → FullLines (row :: rows) (t ++ ['\n'] ++ ts)

/-- The first `m` characters: complete lines and a part of the next one. -/
theorem shortLines_cut {n : Nat} {rows : List (List (List Char))} {ts : List Char} (h : ShortLines n rows ts) :
    ∀ m, m < ts.length → ∃ rows1 rows2 L R p, FullLines rows1 L ∧ ShortLines n rows2 R ∧ rows = rows1 ++ rows2 ∧ ts = L ++ R ∧
      ts.take m = L ++ p ∧ (∀ c ∈ p, csvFlag c ≠ .newline ∧ csvFlag c ≠ .quote) ∧ (n ≤ m → L ≠ []) := by
  induction h with
  | done => intro m hm; cases hm
  | @last row t h1 h2 h3 h4 =>
    intro m hm
    exact ⟨[], [row], [], t, t.take m, .done, .last h1 h2 h3 h4, rfl, rfl, rfl, fun c hc => row_first h1 c (List.mem_of_mem_take hc),
      fun h => by omega⟩
  | @line row t rows ts h1 h2 h3 h4 ih =>
    intro m hm
    by_cases hlt : m ≤ t.length
    · refine ⟨[], row :: rows, [], t ++ ['\n'] ++ ts, t.take m, .done, .line h1 h2 h3 h4, rfl, rfl, ?_,
        fun c hc => row_first h1 c (List.mem_of_mem_take hc), fun h => by omega⟩
      rw [List.append_assoc, List.take_append_of_le_length hlt, List.nil_append]
    · obtain ⟨rows1, rows2, L, R, p, g1, g2, g3, g4, g5, g6, -⟩ := ih (m - (t.length + 1)) (by simp at hm; omega)
      refine ⟨row :: rows1, rows2, t ++ ['\n'] ++ L, R, p, .line h1 h2 g1, g2, by rw [g3]; rfl, by rw [g4]; simp, ?_, g6, fun _ => by simp⟩
      rw [List.append_assoc (t ++ ['\n']), ← g5, List.take_append]
      rw [List.take_of_length_le (by simp; omega)]
      simp

theorem full_reach {rows : List (List (List Char))} {L : List Char} (h : FullLines rows L) : ∀ (pre p : List Char),
    (∀ c ∈ p, csvFlag c ≠ .newline ∧ csvFlag c ≠ .quote) → ∀ s : CsvParser, AtRow pre s → (L = [] → s.rowStart = pre.length) →
    ∃ s', Reach (pre ++ L ++ p) s s' ∧ AtRow (pre ++ L) s' ∧ s'.rowStart = (pre ++ L).length ∧ s'.rows = s.rows ++ rows ∧
      s'.bomScan = s.bomScan := by
  induction h with
  | done =>
    intro pre p hp s hs h0
    rw [List.append_nil]
    exact ⟨s, .refl _, hs, h0 rfl, by simp, rfl⟩
  | @line row t rows ts h1 h2 h3 ih =>
    intro pre p hp s hs _
    have hhead : ∀ d, (ts ++ p).head? = some d → csvFlag d ≠ .newline := by
      intro d hd
      cases h3 with
      | done => exact (hp d (List.mem_of_mem_head? (by simpa using hd))).1
      | @line row' t' rows' ts' g1 g2 g3 =>
        refine (row_first g1 d ?_).1
        cases t' with
        | nil => exact absurd rfl g2
        | cons c t' =>
          simp only [List.cons_append, List.head?_cons, Option.some.injEq] at hd
          subst hd
          simp
    obtain ⟨s1, g1, g2, g3, g4, g5⟩ := line_reach h1 pre (ts ++ p) (.inl ⟨'\n', rfl, by decide, hhead⟩) s hs
    obtain ⟨s2, k1, k2, k3, k4, k5⟩ := ih (pre ++ t ++ ['\n']) p hp s1 g2 (fun _ => g3)
    have e1 : pre ++ (t ++ ['\n'] ++ ts) ++ p = pre ++ t ++ ['\n'] ++ (ts ++ p) := by simp
    have e2 : pre ++ (t ++ ['\n'] ++ ts) = pre ++ t ++ ['\n'] ++ ts := by simp
    have e3 : pre ++ t ++ ['\n'] ++ ts ++ p = pre ++ t ++ ['\n'] ++ (ts ++ p) := by simp
    rw [e1, e2]
    rw [e3] at k1
    exact ⟨s2, g1.trans k1, k2, k3, by rw [k4, g4]; simp, by rw [k5, g5]⟩

/-- The state in which the loop of `parse` begins if there is no byte order mark. -/
theorem parse_start {inp : List Char} {s : CsvParser} (h : hasBom inp = false) :
    ∃ b, CsvParser.parse inp s = loop inp inp.length { s with quoteEscape := false, pos := 0, rowStart := 0, bomScan := b } := by
  unfold CsvParser.parse
  by_cases hc : s.bomScan = false ∧ 3 ≤ inp.length
  · exact ⟨true, by simp only [hc, if_true, h]; simp⟩
  · exact ⟨s.bomScan, by simp only [hc, if_false]⟩

theorem hasBom_false {inp : List Char} (h : Char.ofNat 0xEF ∉ inp) : hasBom inp = false := by
  unfold hasBom
  cases inp with
  | nil => rfl
  | cons c inp =>
    rw [beq_eq_false_iff_ne]
    intro hh
    simp only [List.take_succ_cons, List.cons.injEq] at hh
    exact h (by rw [← hh.1]; simp)

/-- A file in one chunk. -/
theorem read_whole {ends : List (List Char)} (hends : ∀ e ∈ ends, oneLineEnd e) {rows : List (List (List Char))} {text : List Char}
    (h : Lines ends rows text) {n k : Nat} {s : CsvParser} (hd : s.doubleQuote = false) (hb : hasBom text = false) (hn : text.length ≤ n) :
    csvChunks n (k + 1) s text = some rows := by
  rw [csvChunks]
  simp only [List.take_of_length_le hn, hn, if_true, hd]
  obtain ⟨b, hp⟩ := parse_start (s := { bomScan := s.bomScan }) hb
  rw [hp]
  obtain ⟨s', h1, h2, h3⟩ := lines_reach hends h [] (by simp) { bomScan := b }
    { q := rfl, d := rfl, f := rfl, l := rfl, fs := rfl, pos := rfl, start := Nat.le_refl _ }
  rw [List.nil_append] at h1 h2 h3
  rw [loop_reach h1 h2 _ (by simp), h3]
  rfl

/-- A file in several chunks. -/
theorem read_chunks {n : Nat} : ∀ (k : Nat) (rows : List (List (List Char))) (text : List Char), ShortLines n rows text →
    text.length < k → ∀ s : CsvParser, s.doubleQuote = false → Char.ofNat 0xEF ∉ text → csvChunks n k s text = some rows := by
  intro k
  induction k with
  | zero => intro _ _ _ h; cases h
  | succ k ih =>
    intro rows text h hk s hd hb
    by_cases hn : text.length ≤ n
    · exact read_whole (by simp [oneLineEnd]; decide) (shortLines_lines h) hd (hasBom_false hb) hn
    · obtain ⟨rows1, rows2, L, R, p, g1, g2, g3, g4, g5, g6, g7⟩ := shortLines_cut h n (by omega)
      have hL := g7 (Nat.le_refl _)
      have hbp : Char.ofNat 0xEF ∉ L ++ p := fun hh => hb (List.mem_of_mem_take (by rw [g5]; exact hh))
      rw [csvChunks]
      simp only [hn, if_false, g5, hd]
      obtain ⟨b, hp⟩ := parse_start (s := { bomScan := s.bomScan }) (hasBom_false hbp)
      rw [hp]
      obtain ⟨s', k1, k2, k3, k4, k5⟩ := full_reach g1 [] p g6 { bomScan := b }
        { q := rfl, d := rfl, f := rfl, l := rfl, fs := rfl, pos := rfl, start := Nat.le_refl _ } (fun _ => rfl)
      rw [List.nil_append] at k1 k2 k3
      obtain ⟨m, m1, m2⟩ := loop_reach' k1 (L ++ p).length (by simp)
      have hin := loop_inside (inp := L ++ p) m s' k2.q k2.d (by rw [k2.pos, List.drop_left]; exact g6)
      rw [m2, hin.1, hin.2.1, k3, k4]
      have hlen : L.length ≠ 0 := fun hh => hL (List.length_eq_zero_iff.1 hh)
      rw [if_neg hlen, show text.drop L.length = R by rw [g4, List.drop_left]]
      have hbR : Char.ofNat 0xEF ∉ R := fun hh => hb (by rw [g4]; simp [hh])
      have hlenR : R.length < k := by rw [g4, List.length_append] at hk; omega
      rw [ih rows2 R g2 hlenR _ hin.2.2.1 hbR, g3]
      rfl

end DRAMPower
