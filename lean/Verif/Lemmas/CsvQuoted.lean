import Verif.Lemmas.CsvText
import Verif.Spec.QuotedText
import Mathlib.Data.List.Infix
import Mathlib.Data.List.TakeWhile

/-!
# Lemmas about values in quotation marks
-/

namespace DRAMPower
open Spec

namespace CsvParser

theorem doubled_append : ∀ a b : List Char, doubled (a ++ b) = doubled a ++ doubled b
  | [], _ => rfl
  | c :: a, b => by
    rw [List.cons_append, doubled, doubled, doubled_append a b]
    split <;> rfl

theorem doubled_plain : ∀ {a : List Char}, '"' ∉ a → doubled a = a
  | [], _ => rfl
  | c :: a, h => by
    rw [doubled, if_neg (fun e => h (by simp [e])), doubled_plain (fun e => h (by simp [e]))]

theorem quote_iff (c : Char) : csvFlag c = .quote ↔ c = '"' := by
  unfold csvFlag
  constructor
  · intro h
    split at h
    · cases h
    · split at h
      · cases h
      · split at h
        · assumption
        · cases h
  · rintro rfl; decide

/-- Doubled quotation marks are collapsed. -/
theorem collapse_doubled : ∀ v : List Char, collapse false (doubled v) = v
  | [] => rfl
  | c :: v => by
    rw [doubled]
    split
    · rename_i h
      have hq : csvFlag '"' = .quote := by decide
      rw [collapse, if_pos hq, if_neg (by simp), collapse, if_pos hq, if_pos rfl, collapse_doubled v, h]
    · rename_i h
      rw [collapse, if_neg (fun e => h ((quote_iff c).1 e)), collapse_doubled v]

/-- Behind each blank there is something else than quotation marks. -/
def Kept (v : List Char) : Prop := ∀ a b d, v = a ++ b :: d → b ∈ blanks → ∃ c ∈ d, c ≠ '"'

theorem quotable_kept {v : List Char} (h : Quotable v) : Kept v := by
  intro a b d e hb
  have := h.2 (b :: d) (by rw [List.mem_tails, e]; exact List.suffix_append _ _) (by simpa using List.mem_map_of_mem (f := some) hb)
  simpa using this

theorem Kept.init {u : List Char} (h : Kept (u ++ ['"'])) : Kept u := by
  intro a b d e hb
  obtain ⟨c, hc, hne⟩ := h a b (d ++ ['"']) (by rw [e]; simp) hb
  simp only [List.mem_append, List.mem_singleton] at hc
  rcases hc with hc | hc
  · exact ⟨c, hc, hne⟩
  · exact absurd hc hne

/-- Between the quotation marks; `u` has been read, `base` is the position behind the first mark, `s0` the state before it. -/
structure Inside (base : Nat) (s0 : CsvParser) (u : List Char) (s : CsvParser) : Prop where
  q : s.quoteEscape = true
  d : s.doubleQuote = decide ('"' ∈ u)
  f : s.fieldStart = some (base - s0.rowStart)
  pos : s.pos = base + (doubled u).length
  l : Kept u → s.fieldLength = (doubled u).length
  bom : s.bomScan = s0.bomScan
  fs : s.fields = s0.fields
  rs : s.rows = s0.rows
  start : s.rowStart = s0.rowStart

theorem getElem?_mid {pre r : List Char} {c : Char} {n : Nat} (h : n = pre.length) : (pre ++ c :: r)[n]? = some c := by
  rw [h, List.getElem?_append_right (Nat.le_refl _), Nat.sub_self]; rfl

/-- A doubled quotation mark. -/
theorem inside_mark {base : Nat} {s0 s : CsvParser} {u pre r : List Char} (hs : Inside base s0 u s) (hpre : pre.length = base + (doubled u).length) :
    ∃ s', step (pre ++ '"' :: '"' :: r) s = some s' ∧ Inside base s0 (u ++ ['"']) s' := by
  have h0 : (pre ++ '"' :: '"' :: r)[s.pos]? = some '"' := getElem?_mid (by rw [hs.pos, hpre])
  have h1 : (pre ++ '"' :: '"' :: r)[s.pos + 1]? = some '"' := by
    rw [show pre ++ '"' :: '"' :: r = (pre ++ ['"']) ++ '"' :: r by simp]
    exact getElem?_mid (by simp [hs.pos, hpre])
  have hc : s.compoundFlag '"' = .quoteEscapeQuote := by rw [compoundFlag, hs.q]; decide
  have hstep : step (pre ++ '"' :: '"' :: r) s =
      some { s with pos := s.pos + 2, fieldLength := s.fieldLength + 2, doubleQuote := true } := by
    unfold step
    rw [h0]
    simp only [hc, h1, show csvFlag '"' = .quote by decide]
  refine ⟨_, hstep, ?_⟩
  exact { q := hs.q, d := by simp, f := hs.f, pos := by rw [hs.pos, doubled_append]; simp [doubled]; omega,
          l := fun hk => by rw [hs.l hk.init, doubled_append]; simp [doubled], bom := hs.bom, fs := hs.fs, rs := hs.rs, start := hs.start }

/-- Characters that are not quotation marks. -/
theorem inside_run {base : Nat} {s0 s : CsvParser} {u x pre r : List Char} (hs : Inside base s0 u s) (hb : s0.rowStart ≤ base)
    (hpre : pre.length = base + (doubled u).length) (hx : x ≠ []) (hq : '"' ∉ x) :
    ∃ s', step (pre ++ x ++ '"' :: r) s = some s' ∧ Inside base s0 (u ++ x) s' := by
  have hcomp : ∀ c, s.compoundFlag c = .notSpecial ↔ c ≠ '"' := fun c => by
    have := quote_iff c
    rw [compoundFlag, hs.q, if_pos rfl]
    split <;> simp_all
  obtain ⟨y, z, hy, hyb, hz⟩ : ∃ y z, x = y ++ z ∧ (∀ c ∈ y, csvBlank c = true) ∧ ∀ c, z.head? = some c → csvBlank c = false := by
    refine ⟨x.takeWhile csvBlank, x.dropWhile csvBlank, (List.takeWhile_append_dropWhile).symm, fun c hc => List.mem_takeWhile_imp hc, ?_⟩
    intro c hc
    have := List.head?_dropWhile_not csvBlank x
    rw [hc] at this
    simpa using this
  have hqb : csvBlank '"' = false := by decide
  have e1 : skip (pre ++ x ++ '"' :: r) csvBlank s.pos = (pre ++ y).length := by
    rw [hs.pos, ← hpre, hy, show pre ++ (y ++ z) ++ '"' :: r = pre ++ y ++ (z ++ '"' :: r) by simp, skip_append pre y _ hyb, List.length_append]
    intro c hc
    cases z with
    | nil => simp only [List.nil_append, List.head?_cons, Option.some.injEq] at hc; rw [← hc]; exact hqb
    | cons d z => simp only [List.cons_append, List.head?_cons, Option.some.injEq] at hc; exact hz c (by rw [← hc]; rfl)
  have e2 : skip (pre ++ x ++ '"' :: r) (fun c => decide (s.compoundFlag c = .notSpecial)) (pre ++ y).length = (pre ++ x).length := by
    rw [hy, show pre ++ (y ++ z) ++ '"' :: r = (pre ++ y) ++ z ++ '"' :: r by simp, skip_append]
    · simp; omega
    · intro c hc
      have : c ≠ '"' := fun e => hq (by rw [hy, ← e]; simp [hc])
      simpa using (hcomp c).2 this
    · intro c hc
      simp only [List.head?_cons, Option.some.injEq] at hc
      have := mt (hcomp c).1 (by simp [← hc])
      simpa using this
  obtain ⟨c, x', hx'⟩ := List.exists_cons_of_ne_nil hx
  have hget : (pre ++ x ++ '"' :: r)[s.pos]? = some c := by
    rw [hx', show pre ++ c :: x' ++ '"' :: r = pre ++ c :: (x' ++ '"' :: r) by simp]
    exact getElem?_mid (by rw [hs.pos, hpre])
  have hstep : step (pre ++ x ++ '"' :: r) s = some (parseField (pre ++ x ++ '"' :: r) s) := by
    unfold step
    rw [hget]
    simp only [(hcomp c).2 (fun e => hq (by simp [hx', e]))]
  have e3 : (pre ++ x).length - (base - s0.rowStart + s0.rowStart) = (doubled (u ++ x)).length := by
    rw [doubled_append, doubled_plain hq]
    simp only [List.length_append, hpre]
    omega
  refine ⟨_, hstep, ?_⟩
  refine { q := hs.q, d := ?_, f := ?_, pos := ?_, l := ?_, bom := hs.bom, fs := hs.fs, rs := hs.rs, start := hs.start }
  · show s.doubleQuote = _
    rw [hs.d]
    simp [hq]
  · show some (s.fieldStart.getD _) = _
    rw [hs.f]; rfl
  · show skip _ _ (skip _ csvBlank s.pos) = _
    rw [e1, e2, doubled_append, doubled_plain hq]
    simp only [List.length_append, hpre]
    omega
  · intro hk
    show trimEnd _ (skip _ _ (skip _ csvBlank s.pos) - 1) (skip _ _ (skip _ csvBlank s.pos) - (s.fieldStart.getD _ + s.rowStart)) = _
    rw [e1, e2, hs.f, hs.start, Option.getD_some, e3]
    refine trimEnd_keep (.inr ?_)
    obtain ⟨w, b, hw⟩ : ∃ w b, x = w ++ [b] := by
      rcases List.eq_nil_or_concat x with h | ⟨w, b, h⟩
      · exact absurd h hx
      · exact ⟨w, b, by rw [h, List.concat_eq_append]⟩
    have hnb : b ∉ blanks := fun hb' => by
      obtain ⟨c, hc, -⟩ := hk (u ++ w) b [] (by rw [hw]; simp) hb'
      cases hc
    rw [List.getD_eq_getElem?_getD, hw, show pre ++ (w ++ [b]) ++ '"' :: r = (pre ++ w) ++ b :: '"' :: r by simp, getElem?_mid (by simp)]
    show csvBlank b = false
    cases hcb : csvBlank b
    · rfl
    · exact absurd ((blank_iff b).1 hcb) hnb

/-- Up to the closing quotation mark. -/
theorem inside_reach {base : Nat} {s0 : CsvParser} (hb : s0.rowStart ≤ base) : ∀ (n : Nat) (rest u pre post : List Char) (s : CsvParser),
    rest.length ≤ n → Inside base s0 u s → pre.length = base + (doubled u).length →
    ∃ s', Reach (pre ++ doubled rest ++ '"' :: post) s s' ∧ Inside base s0 (u ++ rest) s' := by
  intro n
  induction n with
  | zero =>
    intro rest u pre post s hn hs _
    have : rest = [] := List.length_eq_zero_iff.1 (by omega)
    subst this
    exact ⟨s, .refl _, by simpa using hs⟩
  | succ n ih =>
    intro rest u pre post s hn hs hpre
    cases rest with
    | nil => exact ⟨s, .refl _, by simpa using hs⟩
    | cons c rest =>
      by_cases hc : c = '"'
      · subst hc
        have e : pre ++ doubled ('"' :: rest) ++ '"' :: post = pre ++ '"' :: '"' :: (doubled rest ++ '"' :: post) := by simp [doubled]
        obtain ⟨s1, h1, h2⟩ := inside_mark (r := doubled rest ++ '"' :: post) hs hpre
        obtain ⟨s2, g1, g2⟩ := ih rest (u ++ ['"']) (pre ++ ['"', '"']) post s1 (by simpa using hn) h2
          (by rw [doubled_append]; simp [doubled, hpre]; omega)
        rw [e]
        refine ⟨s2, .next h1 (by simpa using g1), by simpa using g2⟩
      · have hsplit := List.takeWhile_append_dropWhile (p := fun c => decide (c ≠ '"')) (l := c :: rest)
        have hne : (c :: rest).takeWhile (fun c => decide (c ≠ '"')) ≠ [] := by
          rw [List.takeWhile_cons_of_pos (by simp [hc])]; simp
        have hq : '"' ∉ (c :: rest).takeWhile (fun c => decide (c ≠ '"')) := fun h => by
          have := List.mem_takeWhile_imp h
          simp at this
        have hhead := List.head?_dropWhile_not (fun c => decide (c ≠ '"')) (c :: rest)
        generalize (c :: rest).takeWhile (fun c => decide (c ≠ '"')) = x at hsplit hne hq
        generalize (c :: rest).dropWhile (fun c => decide (c ≠ '"')) = y at hsplit hhead
        have hlen := congrArg List.length hsplit
        have hxpos := List.length_pos_iff.2 hne
        rw [List.length_append] at hlen
        rw [← hsplit, doubled_append, doubled_plain hq]
        obtain ⟨r, hr⟩ : ∃ r, doubled y ++ '"' :: post = '"' :: r := by
          cases y with
          | nil => exact ⟨post, rfl⟩
          | cons d y =>
            have hd : d = '"' := by simpa using hhead
            subst hd
            exact ⟨'"' :: doubled y ++ '"' :: post, by simp [doubled]⟩
        obtain ⟨s1, h1, h2⟩ := inside_run (r := r) hs hb hpre hne hq
        obtain ⟨s2, g1, g2⟩ := ih y (u ++ x) (pre ++ x) post s1 (by omega) h2 (by
          rw [doubled_append, doubled_plain hq]; simp [hpre]; omega)
        have e : pre ++ (x ++ doubled y) ++ '"' :: post = pre ++ x ++ '"' :: r := by rw [← hr]; simp
        have e' : pre ++ x ++ doubled y ++ '"' :: post = pre ++ x ++ '"' :: r := by rw [← hr]; simp
        rw [e]
        rw [e'] at g1
        exact ⟨s2, .next h1 g1, by rw [← List.append_assoc]; exact g2⟩

/-- What stands at the end of a value in quotation marks. -/
theorem inside_value {base : Nat} {s0 s : CsvParser} {v pre post : List Char} (hs : Inside base s0 v s) (hk : Kept v) (hb : s0.rowStart ≤ base)
    (hpre : pre.length = base) : getField (pre ++ doubled v ++ post) s = v := by
  have hd : s0.rowStart + (base - s0.rowStart) = pre.length := by omega
  rw [getField, hs.f, hs.start, hs.l hk, Option.getD_some, hd, List.append_assoc, List.drop_left, List.take_left, hs.d]
  by_cases hv : '"' ∈ v
  · simp [hv, collapse_doubled]
  · simp [hv, doubled_plain hv]

/-- The opening quotation mark and what follows up to the closing one. -/
theorem quoted_open {v : List Char} (hv : Quotable v) (pre post : List Char) (s : CsvParser) (hs : AtField s)
    (hpos : s.pos = pre.length) (hr : s.rowStart ≤ pre.length) :
    ∃ s', Reach (pre ++ quoted v ++ post) s s' ∧ Inside (pre.length + 1) s v s' := by
  have e : pre ++ quoted v ++ post = pre ++ '"' :: (doubled v ++ '"' :: post) := by simp [quoted]
  have h0 : (pre ++ quoted v ++ post)[s.pos]? = some '"' := by rw [e]; exact getElem?_mid hpos
  obtain ⟨c, hc1, hc2⟩ : ∃ c, (pre ++ quoted v ++ post)[s.pos + 1]? = some c ∧ csvBlank c = false := by
    rw [e, show pre ++ '"' :: (doubled v ++ '"' :: post) = (pre ++ ['"']) ++ (doubled v ++ '"' :: post) by simp, hpos,
      show pre.length + 1 = (pre ++ ['"']).length by simp, List.getElem?_append_right (Nat.le_refl _), Nat.sub_self, ← List.head?_eq_getElem?]
    cases v with
    | nil => exact ⟨'"', rfl, by decide⟩
    | cons d v =>
      rw [doubled]
      split
      · exact ⟨'"', rfl, by decide⟩
      · refine ⟨d, rfl, ?_⟩
        cases hb : csvBlank d
        · rfl
        · exact absurd (by simpa using List.mem_map_of_mem (f := some) ((blank_iff d).1 hb)) hv.1
  have hcomp : s.compoundFlag '"' = .quote := by rw [compoundFlag, hs.q]; decide
  have hstep : step (pre ++ quoted v ++ post) s =
      some { s with quoteEscape := true, pos := s.pos + 1, fieldStart := some (s.pos + 1 - s.rowStart) } := by
    unfold step
    rw [h0]
    simp only [hcomp, hs.l, hs.f, hc1, hc2, if_true, Bool.false_eq_true, if_false]
  obtain ⟨s', h1, h2⟩ := inside_reach (base := pre.length + 1) (s0 := s) (by omega) v.length v [] (pre ++ ['"']) post
    { s with quoteEscape := true, pos := s.pos + 1, fieldStart := some (s.pos + 1 - s.rowStart) } (Nat.le_refl _)
    { q := rfl, d := by simpa using hs.d, f := by show some (s.pos + 1 - _) = _; rw [hpos]
      pos := by show s.pos + 1 = _; rw [hpos]; rfl
      l := fun _ => hs.l, bom := rfl, fs := rfl, rs := rfl, start := rfl } (by simp [doubled])
  rw [show pre ++ ['"'] ++ doubled v ++ '"' :: post = pre ++ quoted v ++ post by simp [quoted]] at h1
  exact ⟨s', .next hstep h1, by simpa using h2⟩

/-- A value in quotation marks before a comma or line end. -/
theorem quoted_reach {v : List Char} (hv : Quotable v) (pre post : List Char) (hp : Ends post) (hne : post ≠ []) (s : CsvParser) (hs : AtField s)
    (hpos : s.pos = pre.length) (hr : s.rowStart ≤ pre.length) :
    ∃ s', Reach (pre ++ quoted v ++ post) s s' ∧ s'.pos = pre.length + (quoted v).length ∧ s'.quoteEscape = false ∧
      s'.bomScan = s.bomScan ∧ s'.fields = s.fields ∧ s'.rows = s.rows ∧ s'.rowStart = s.rowStart ∧
      getField (pre ++ quoted v ++ post) s' = v ∧ (s'.doubleQuote = false → '"' ∉ v) := by
  obtain ⟨s1, h1, h2⟩ := quoted_open hv pre post s hs hpos hr
  have hval : getField (pre ++ quoted v ++ post) s1 = v := by
    have := inside_value (pre := pre ++ ['"']) (post := '"' :: post) h2 (quotable_kept hv) (by omega) (by simp)
    rw [show pre ++ ['"'] ++ doubled v ++ '"' :: post = pre ++ quoted v ++ post by simp [quoted]] at this
    exact this
  obtain ⟨c, post', hc⟩ := List.exists_cons_of_ne_nil hne
  have hcm := hp c (by rw [hc]; rfl)
  have e : pre ++ quoted v ++ post = (pre ++ '"' :: doubled v) ++ '"' :: c :: post' := by rw [hc]; simp [quoted]
  have hl : s1.pos = (pre ++ '"' :: doubled v).length := by rw [h2.pos]; simp; omega
  have g0 : (pre ++ quoted v ++ post)[s1.pos]? = some '"' := by rw [e]; exact getElem?_mid hl
  have g1 : (pre ++ quoted v ++ post)[s1.pos + 1]? = some c := by
    rw [e, show (pre ++ '"' :: doubled v) ++ '"' :: c :: post' = (pre ++ '"' :: doubled v ++ ['"']) ++ c :: post' by simp]
    exact getElem?_mid (by rw [hl]; simp only [List.length_append, List.length_cons, List.length_nil]; try omega)
  have hcomp : s1.compoundFlag '"' = .quoteEscapeQuote := by rw [compoundFlag, h2.q]; decide
  have hstep : step (pre ++ quoted v ++ post) s1 = some { s1 with quoteEscape := false, pos := s1.pos + 1 } := by
    unfold step
    rw [g0]
    simp only [hcomp, g1]
    rcases ends_flag hcm with h | h <;> simp only [h]
  refine ⟨_, h1.trans (.next hstep (.refl _)), ?_, rfl, h2.bom, h2.fs, h2.rs, h2.start, hval, fun hd => by
    have hd : s1.doubleQuote = false := hd
    rw [h2.d] at hd; simpa using hd⟩
  show s1.pos + 1 = _
  rw [h2.pos]; simp [quoted]; omega

/-- The last value of the data in quotation marks: the parser stops at the closing one. -/
theorem quoted_last {v : List Char} (hv : Quotable v) (pre : List Char) (s : CsvParser) (hs : AtField s)
    (hpos : s.pos = pre.length) (hr : s.rowStart ≤ pre.length) :
    ∃ s', Reach (pre ++ quoted v) s s' ∧ step (pre ++ quoted v) s' = none ∧ s'.fields = s.fields ∧ s'.rows = s.rows ∧
      getField (pre ++ quoted v) s' = v ∧ (v ≠ [] → 0 < s'.fieldLength) ∧ (s'.doubleQuote = false → '"' ∉ v) := by
  obtain ⟨s1, h1, h2⟩ := quoted_open hv pre [] s hs hpos hr
  rw [List.append_nil] at h1
  have hval : getField (pre ++ quoted v) s1 = v := by
    have := inside_value (pre := pre ++ ['"']) (post := ['"']) h2 (quotable_kept hv) (by omega) (by simp)
    rw [show pre ++ ['"'] ++ doubled v ++ ['"'] = pre ++ quoted v by simp [quoted]] at this
    exact this
  have e : pre ++ quoted v = (pre ++ '"' :: doubled v) ++ ['"'] := by simp [quoted]
  have hl : s1.pos = (pre ++ '"' :: doubled v).length := by rw [h2.pos]; simp; omega
  have g0 : (pre ++ quoted v)[s1.pos]? = some '"' := by rw [e]; exact getElem?_mid hl
  have g1 : (pre ++ quoted v)[s1.pos + 1]? = none := by
    rw [e, List.getElem?_eq_none]; rw [hl]; simp only [List.length_append, List.length_cons, List.length_nil]; omega
  have hcomp : s1.compoundFlag '"' = .quoteEscapeQuote := by rw [compoundFlag, h2.q]; decide
  refine ⟨s1, h1, ?_, h2.fs, h2.rs, hval, ?_, fun hd => by rw [h2.d] at hd; simpa using hd⟩
  · unfold step
    rw [g0]
    simp only [hcomp, g1]
  · intro hne
    rw [h2.l (quotable_kept hv)]
    cases v with
    | nil => exact absurd rfl hne
    | cons c v => rw [doubled]; split <;> simp

/-- The flag for doubled quotation marks set, as it may be left by the chunk before. -/
def dq (s : CsvParser) : CsvParser := { s with doubleQuote := true }

/-- The parser stands at the beginning of a field, whatever the flag for doubled quotation marks is. -/
structure AtStart (s : CsvParser) : Prop where
  q : s.quoteEscape = false
  f : s.fieldStart = none
  l : s.fieldLength = 0

theorem AtField.start {s : CsvParser} (h : AtField s) : AtStart s := ⟨h.q, h.f, h.l⟩

theorem step_grows {inp : List Char} {s s' : CsvParser} (h : step inp s = some s') :
    s.rows.length ≤ s'.rows.length ∧ (s'.rows.length = s.rows.length → s.fields.length ≤ s'.fields.length ∧ s'.rowStart = s.rowStart) := by
  unfold step at h
  split at h
  · cases h
  · split at h
    · cases h
      exact ⟨Nat.le_refl _, fun _ => ⟨by simp [pushField], rfl⟩⟩
    · cases h
      exact ⟨by simp [pushRow, pushField], fun h => absurd h (by simp [pushRow, pushField])⟩
    · cases h
      exact ⟨Nat.le_refl _, fun _ => ⟨Nat.le_refl _, rfl⟩⟩
    · split at h
      · cases h
      · split at h <;> cases h <;> exact ⟨Nat.le_refl _, fun _ => ⟨Nat.le_refl _, rfl⟩⟩
    · split at h <;> cases h <;> exact ⟨Nat.le_refl _, fun _ => ⟨Nat.le_refl _, rfl⟩⟩

theorem reach_grows {inp : List Char} {s s' : CsvParser} (h : Reach inp s s') :
    s.rows.length ≤ s'.rows.length ∧ (s'.rows.length = s.rows.length → s.fields.length ≤ s'.fields.length ∧ s'.rowStart = s.rowStart) := by
  induction h with
  | refl => exact ⟨Nat.le_refl _, fun _ => ⟨Nat.le_refl _, rfl⟩⟩
  | next e _ ih =>
    obtain ⟨h1, h2⟩ := step_grows e
    refine ⟨by omega, fun h => ?_⟩
    obtain ⟨g1, g2⟩ := ih.2 (by omega)
    obtain ⟨g3, g4⟩ := h2 (by omega)
    exact ⟨by omega, by rw [g2, g4]⟩

theorem step_dq {inp : List Char} {s s' : CsvParser} (h : step inp s = some s') (hr : s'.rows.length = s.rows.length)
    (hf : s'.fields.length = s.fields.length) : step inp (dq s) = some (dq s') := by
  unfold step at h ⊢
  have hp : (dq s).pos = s.pos := rfl
  have hc : ∀ c, (dq s).compoundFlag c = s.compoundFlag c := fun _ => rfl
  have hl : (dq s).fieldLength = s.fieldLength := rfl
  simp only [hp, hc, hl]
  split at h
  · cases h
  · split at h
    · cases h
      simp [pushField] at hf
    · cases h
      simp [pushRow, pushField] at hr
    · cases h
      rfl
    · split at h
      · cases h
      · split at h <;> cases h <;> rfl
    · split at h
      · rename_i h0
        cases h
        rw [if_pos h0]
        rfl
      · rename_i h0
        cases h
        rw [if_neg h0]
        rfl

theorem reach_dq {inp : List Char} {s s' : CsvParser} (h : Reach inp s s') : s'.rows.length = s.rows.length →
    s'.fields.length = s.fields.length → Reach inp (dq s) (dq s') := by
  induction h with
  | refl => intro _ _; exact .refl _
  | next e hs ih =>
    intro hr hf
    obtain ⟨h1, h2⟩ := step_grows e
    obtain ⟨g1, g2⟩ := reach_grows hs
    have h3 := h2 (by omega)
    have g3 := g2 (by omega)
    exact .next (step_dq e (by omega) (by omega)) (ih (by omega) (by omega))

theorem collapse_none : ∀ {v : List Char}, '"' ∉ v → collapse false v = v
  | [], _ => rfl
  | c :: v, h => by
    rw [collapse, if_neg (fun e => h (by rw [(quote_iff c).1 e]; simp)), collapse_none (fun e => h (by simp [e]))]

theorem getField_dq {inp v : List Char} {s : CsvParser} (h : getField inp s = v) (hd : s.doubleQuote = false → '"' ∉ v) :
    getField inp (dq s) = v := by
  cases hs : s.doubleQuote with
  | false =>
    have : getField inp (dq s) = collapse false (getField inp s) := by
      rw [getField, getField, hs]; rfl
    rw [this, h, collapse_none (hd hs)]
  | true =>
    rw [← h, getField, getField, hs]; rfl

/-- Whatever holds at the beginning of a field without the flag. -/
theorem start_cases {s : CsvParser} (h : AtStart s) : AtField s ∨ ∃ s0, AtField s0 ∧ s = dq s0 := by
  cases hd : s.doubleQuote with
  | false => exact .inl ⟨h.q, hd, h.f, h.l⟩
  | true =>
    refine .inr ⟨{ s with doubleQuote := false }, ⟨h.q, rfl, h.f, h.l⟩, ?_⟩
    rw [dq]
    cases s
    simp_all

theorem plain_noQuote {v t : List Char} (h : WritesField v t) : '"' ∉ v := by
  intro hq
  have := (row_first (.one h) '"' (by
    cases h with
    | mk a v b _ _ _ => simp [hq])).2
  revert this
  decide

theorem tight_reach0 {v t : List Char} (h : WritesTight v t) (pre post : List Char) (hp : Ends post) (hne : post ≠ []) (s : CsvParser)
    (hs : AtField s) (hpos : s.pos = pre.length) (hr : s.rowStart ≤ pre.length) :
    ∃ s', Reach (pre ++ t ++ post) s s' ∧ s'.pos = pre.length + t.length ∧ s'.quoteEscape = false ∧
      s'.bomScan = s.bomScan ∧ s'.fields = s.fields ∧ s'.rows = s.rows ∧ s'.rowStart = s.rowStart ∧
      getField (pre ++ t ++ post) s' = v ∧ (s'.doubleQuote = false → '"' ∉ v) := by
  cases h with
  | plain h =>
    obtain ⟨s', h1, h2, h3, -, h5, h6, h7, h8, h9, -⟩ := field_reach h pre post hp s hs hpos hr
    exact ⟨s', h1, h2, h3, h5, h6, h7, h8, h9, fun _ => plain_noQuote h⟩
  | quoted hv => exact quoted_reach hv pre post hp hne s hs hpos hr

theorem tight_reach {v t : List Char} (h : WritesTight v t) (pre post : List Char) (hp : Ends post) (hne : post ≠ []) (s : CsvParser)
    (hs : AtStart s) (hpos : s.pos = pre.length) (hr : s.rowStart ≤ pre.length) :
    ∃ s', Reach (pre ++ t ++ post) s s' ∧ s'.pos = pre.length + t.length ∧ s'.quoteEscape = false ∧
      s'.bomScan = s.bomScan ∧ s'.fields = s.fields ∧ s'.rows = s.rows ∧ s'.rowStart = s.rowStart ∧
      getField (pre ++ t ++ post) s' = v := by
  rcases start_cases hs with hs | ⟨s0, hs0, rfl⟩
  · obtain ⟨s', h1, h2, h3, h5, h6, h7, h8, h9, -⟩ := tight_reach0 h pre post hp hne s hs hpos hr
    exact ⟨s', h1, h2, h3, h5, h6, h7, h8, h9⟩
  · obtain ⟨s', h1, h2, h3, h5, h6, h7, h8, h9, h10⟩ := tight_reach0 h pre post hp hne s0 hs0 hpos hr
    exact ⟨dq s', reach_dq h1 (by rw [h7]) (by rw [h6]), h2, h3, h5, h6, h7, h8, getField_dq h9 h10⟩

theorem tight_last0 {v t : List Char} (h : WritesTight v t) (pre : List Char) (s : CsvParser)
    (hs : AtField s) (hpos : s.pos = pre.length) (hr : s.rowStart ≤ pre.length) :
    ∃ s', Reach (pre ++ t) s s' ∧ step (pre ++ t) s' = none ∧ s'.fields = s.fields ∧ s'.rows = s.rows ∧
      getField (pre ++ t) s' = v ∧ (v ≠ [] → 0 < s'.fieldLength) ∧ (s'.doubleQuote = false → '"' ∉ v) := by
  cases h with
  | plain h =>
    obtain ⟨s', h1, h2, h3, -, h5, h6, h7, h8, h9, h10⟩ := field_reach h pre [] (by simp [Ends]) s hs hpos hr
    rw [List.append_nil] at h1 h9
    exact ⟨s', h1, step_end (by rw [h2]; simp), h6, h7, h9, fun hne => by rw [h10]; exact List.length_pos_iff.2 hne, fun _ => plain_noQuote h⟩
  | quoted hv => exact quoted_last hv pre s hs hpos hr

theorem step_none_dq {inp : List Char} {s : CsvParser} (h : step inp s = none) : step inp (dq s) = none := by
  unfold step at h ⊢
  have hp : (dq s).pos = s.pos := rfl
  have hc : ∀ c, (dq s).compoundFlag c = s.compoundFlag c := fun _ => rfl
  simp only [hp, hc]
  split at h
  · rfl
  · split at h
    · cases h
    · cases h
    · cases h
    · split at h
      · rfl
      · split at h <;> cases h
    · split at h <;> cases h

theorem tight_last {v t : List Char} (h : WritesTight v t) (pre : List Char) (s : CsvParser)
    (hs : AtStart s) (hpos : s.pos = pre.length) (hr : s.rowStart ≤ pre.length) :
    ∃ s', Reach (pre ++ t) s s' ∧ step (pre ++ t) s' = none ∧ s'.fields = s.fields ∧ s'.rows = s.rows ∧
      getField (pre ++ t) s' = v ∧ (v ≠ [] → 0 < s'.fieldLength) := by
  rcases start_cases hs with hs | ⟨s0, hs0, rfl⟩
  · obtain ⟨s', h1, h2, h3, h4, h5, h6, -⟩ := tight_last0 h pre s hs hpos hr
    exact ⟨s', h1, h2, h3, h4, h5, h6⟩
  · obtain ⟨s', h1, h2, h3, h4, h5, h6, h7⟩ := tight_last0 h pre s0 hs0 hpos hr
    exact ⟨dq s', reach_dq h1 (by rw [h4]) (by rw [h3]), step_none_dq h2, h3, h4, getField_dq h5 h7, h6⟩

/-- A comma between two fields. -/
theorem tight_more {v t : List Char} (h : WritesTight v t) (pre rest : List Char) (s : CsvParser) (hs : AtStart s)
    (hpos : s.pos = pre.length) (hr : s.rowStart ≤ pre.length) :
    ∃ s', Reach (pre ++ t ++ ',' :: rest) s s' ∧ AtField s' ∧ s'.pos = (pre ++ t ++ [',']).length ∧
      s'.bomScan = s.bomScan ∧ s'.fields = s.fields ++ [v] ∧ s'.rows = s.rows ∧ s'.rowStart = s.rowStart := by
  obtain ⟨s1, h1, h2, h3, h5, h6, h7, h8, h9⟩ := tight_reach h pre (',' :: rest)
    (fun c hc => by simp only [List.head?_cons, Option.some.injEq] at hc; subst hc; simp) (by simp) s hs hpos hr
  have hd : (pre ++ t ++ ',' :: rest)[s1.pos]? = some ',' := getElem?_mid (by rw [h2]; simp)
  refine ⟨_, h1.trans (.next (delimiter_step hd h3) (.refl _)), ⟨h3, rfl, rfl, rfl⟩, ?_, h5, ?_, h7, h8⟩
  · show s1.pos + 1 = _
    rw [h2]; simp; omega
  · show s1.fields ++ [getField _ s1] = _
    rw [h6, h9]

theorem tightRow_reach {vs : List (List Char)} {t : List Char} (h : RowOf WritesTight vs t) : ∀ (pre post : List Char), Ends post → post ≠ [] →
    ∀ s : CsvParser, AtStart s → s.pos = pre.length → s.rowStart ≤ pre.length →
    ∃ s', Reach (pre ++ t ++ post) s s' ∧ s'.pos = pre.length + t.length ∧ s'.quoteEscape = false ∧
      s'.bomScan = s.bomScan ∧ s'.fields ++ [getField (pre ++ t ++ post) s'] = s.fields ++ vs ∧ s'.rows = s.rows ∧
      s'.rowStart = s.rowStart := by
  induction h with
  | @one v t h =>
    intro pre post hp hne s hs hpos hr
    obtain ⟨s', h1, h2, h3, h5, h6, h7, h8, h9⟩ := tight_reach h pre post hp hne s hs hpos hr
    exact ⟨s', h1, h2, h3, h5, by rw [h6, h9], h7, h8⟩
  | @more v t vs ts h hw ih =>
    intro pre post hp hne s hs hpos hr
    obtain ⟨s1, h1, h2, h3, h4, h5, h6, h7⟩ := tight_more h pre (ts ++ post) s hs hpos hr
    obtain ⟨s2, g1, g2, g3, g4, g5, g6, g7⟩ := ih (pre ++ t ++ [',']) post hp hne s1 h2.start h3 (by rw [h7]; simp; omega)
    have e : pre ++ (t ++ ',' :: ts) ++ post = pre ++ t ++ ',' :: (ts ++ post) := by simp
    have e' : pre ++ t ++ [','] ++ ts ++ post = pre ++ t ++ ',' :: (ts ++ post) := by simp
    rw [e'] at g1 g5
    rw [e]
    exact ⟨s2, h1.trans g1, by rw [g2]; simp; omega, g3, by rw [g4, h4], by rw [g5, h5]; simp, by rw [g6, h6], by rw [g7, h7]⟩

theorem tightRow_last {vs : List (List Char)} {t : List Char} (h : RowOf WritesTight vs t) : ∀ (pre : List Char),
    ∀ s : CsvParser, AtStart s → s.pos = pre.length → s.rowStart ≤ pre.length → (∀ v, vs.getLast? = some v → v ≠ []) →
    ∃ s', Reach (pre ++ t) s s' ∧ step (pre ++ t) s' = none ∧ s'.fields ++ [getField (pre ++ t) s'] = s.fields ++ vs ∧ s'.rows = s.rows ∧
      0 < s'.fieldLength := by
  induction h with
  | @one v t h =>
    intro pre s hs hpos hr hl
    obtain ⟨s', h1, h2, h3, h4, h5, h6⟩ := tight_last h pre s hs hpos hr
    exact ⟨s', h1, h2, by rw [h3, h5], h4, h6 (hl v rfl)⟩
  | @more v t vs ts h hw ih =>
    intro pre s hs hpos hr hl
    obtain ⟨s1, h1, h2, h3, h4, h5, h6, h7⟩ := tight_more h pre ts s hs hpos hr
    obtain ⟨s2, g1, g2, g3, g4, g5⟩ := ih (pre ++ t ++ [',']) s1 h2.start h3 (by rw [h7]; simp; omega) (fun w hw' => hl w (by
      cases vs with
      | nil => cases hw'
      | cons x vs => simpa [List.getLast?_cons_cons] using hw'))
    have e : pre ++ (t ++ ',' :: ts) = pre ++ t ++ ',' :: ts := by simp
    have e' : pre ++ t ++ [','] ++ ts = pre ++ t ++ ',' :: ts := by simp
    rw [e'] at g1 g2 g3
    rw [e]
    exact ⟨s2, h1.trans g1, g2, by rw [g3, h5]; simp, by rw [g4, h6], g5⟩

theorem tight_head {v t : List Char} (h : WritesTight v t) : ∀ c, t.head? = some c → csvFlag c ≠ .newline := by
  intro c hc
  cases h with
  | plain h => exact (row_first (.one h) c (List.mem_of_mem_head? (by rw [hc]; rfl))).1
  | quoted hv => simp only [quoted, List.cons_append, List.head?_cons, Option.some.injEq] at hc; subst hc; decide

theorem tightRow_head {vs : List (List Char)} {t : List Char} (h : RowOf WritesTight vs t) (post : List Char) (hne : t ≠ []) :
    ∀ c, (t ++ post).head? = some c → csvFlag c ≠ .newline := by
  intro c hc
  cases h with
  | one h =>
    cases t with
    | nil => exact absurd rfl hne
    | cons d t => exact tight_head h c (by simpa using hc)
  | @more v t vs ts h _ =>
    cases t with
    | nil => simp only [List.nil_append, List.cons_append, List.head?_cons, Option.some.injEq] at hc; subst hc; decide
    | cons d t => exact tight_head h c (by simpa using hc)

theorem tightText_head {ends : List (List Char)} {rows : List (List (List Char))} {ts : List Char} (h : TightText ends rows ts) :
    ∀ d, ts.head? = some d → csvFlag d ≠ .newline := by
  intro d hd
  cases h with
  | done => cases hd
  | last hw ht _ => exact tightRow_head hw [] ht d (by simpa using hd)
  | @line row t e rows ts hw ht _ _ => exact tightRow_head hw (e ++ ts) ht d (by simpa using hd)

theorem oneLineEnd_last {e pre : List Char} (h : oneLineEnd e) : (pre ++ e).getLast? ≠ some ',' := by
  rcases h with ⟨c, rfl, hc⟩ | ⟨c, d, rfl, hc, hd⟩
  · rw [List.getLast?_append]
    intro h
    simp only [List.getLast?_singleton, Option.some_or, Option.some.injEq] at h
    subst h
    revert hc; decide
  · rw [List.getLast?_append]
    intro h
    simp only [List.getLast?_cons_cons, List.getLast?_singleton, Option.some_or, Option.some.injEq] at h
    subst h
    revert hd; decide

/-- The parser stands at the beginning of a row, whatever the flag for doubled quotation marks is. -/
structure RowStart (pre : List Char) (s : CsvParser) : Prop extends AtStart s where
  fs : s.fields = []
  pos : s.pos = pre.length
  start : s.rowStart ≤ pre.length

theorem tightText_reach {ends : List (List Char)} (hends : ∀ e ∈ ends, oneLineEnd e) {rows : List (List (List Char))} {ts : List Char}
    (h : TightText ends rows ts) : ∀ (pre : List Char), pre.getLast? ≠ some ',' → ∀ s : CsvParser, RowStart pre s →
    ∃ s', Reach (pre ++ ts) s s' ∧ step (pre ++ ts) s' = none ∧ (endFeed (pre ++ ts) s').rows = s.rows ++ rows := by
  induction h with
  | done =>
    intro pre hpre s hs
    rw [List.append_nil]
    exact ⟨s, .refl _, step_end hs.pos, by rw [endFeed_none hs.l hs.fs hpre, List.append_nil]⟩
  | @last row t hw ht hk =>
    intro pre hpre s hs
    obtain ⟨s1, h1, h2, h3, h4, h5⟩ := tightRow_last hw pre s hs.toAtStart hs.pos hs.start hk
    refine ⟨s1, h1, h2, ?_⟩
    rw [endFeed_last (.inl h5), h4, h3, hs.fs, List.nil_append]
  | @line row t e rows ts hw ht he hl ih =>
    intro pre hpre s hs
    have hb := breaks_of (hends e he) (tightText_head hl)
    have hne : e ++ ts ≠ [] := by rcases hends e he with ⟨c, rfl, -⟩ | ⟨c, d, rfl, -⟩ <;> simp
    obtain ⟨s1, h1, h2, h3, h4, h5, h6, h7⟩ := tightRow_reach hw pre (e ++ ts) hb.ends hne s hs.toAtStart hs.pos hs.start
    have e0 : pre ++ t ++ (e ++ ts) = pre ++ t ++ e ++ ts := by simp
    rw [e0] at h1 h5
    have hstep := newline_step (s := s1) (pre := pre ++ t) hb (by rw [h2, List.length_append]) h3
    obtain ⟨s2, g1, g2, g3⟩ := ih (pre ++ t ++ e) (oneLineEnd_last (hends e he))
      ({ pushRow (pushField (pre ++ t ++ e ++ ts) s1) with
        pos := (pre ++ t).length + e.length, rowStart := (pre ++ t).length + e.length, fields := [] } : CsvParser)
      { q := h3, f := rfl, l := rfl, fs := rfl, pos := List.length_append.symm, start := Nat.le_of_eq List.length_append.symm }
    have e1 : pre ++ (t ++ e ++ ts) = pre ++ t ++ e ++ ts := by simp
    rw [e1]
    refine ⟨s2, h1.trans (.next hstep g1), g2, ?_⟩
    rw [g3]
    show s1.rows ++ [s1.fields ++ [getField _ s1]] ++ rows = _
    rw [h5, h6, hs.fs]; simp

/-! ## A cut row -/

theorem takeWhile_take (f : Char → Bool) : ∀ (l : List Char) (k : Nat), (l.take k).takeWhile f = (l.takeWhile f).take k
  | [], _ => by simp
  | _ :: _, 0 => by simp
  | c :: l, k + 1 => by
    rw [List.take_succ_cons, List.takeWhile_cons, List.takeWhile_cons]
    split
    · rw [List.take_succ_cons, takeWhile_take f l k]
    · rfl

theorem skip_cut (a b : List Char) (f : Char → Bool) {p : Nat} (hp : p ≤ a.length) : skip a f p = min (skip (a ++ b) f p) a.length := by
  have e : a.drop p = ((a ++ b).drop p).take (a.length - p) := by
    rw [List.drop_append_of_le_length hp, List.take_append_of_le_length (by simp), List.take_of_length_le (by simp)]
  unfold skip
  rw [e, takeWhile_take, List.length_take]
  omega

theorem trimEnd_cut (a b : List Char) : ∀ (len j : Nat), j < a.length → trimEnd a j len = trimEnd (a ++ b) j len
  | 0, _, _ => by simp [trimEnd]
  | len + 1, j, h => by
    have : (a ++ b).getD j 'x' = a.getD j 'x' := by
      rw [List.getD_eq_getElem?_getD, List.getD_eq_getElem?_getD, List.getElem?_append_left h]
    rw [trimEnd, trimEnd, this, trimEnd_cut a b len (j - 1) (by omega)]

/-- The same as far as the ways of two parsers are concerned. -/
structure SameWay (s r : CsvParser) : Prop where
  q : r.quoteEscape = s.quoteEscape
  pos : r.pos = s.pos
  start : r.rowStart = s.rowStart
  f : r.fieldStart = s.fieldStart
  l : r.fieldLength = s.fieldLength

/-- One step of a parser of the first part of the data only, while no row is completed. -/
theorem step_cut {a b : List Char} {s s' r : CsvParser} (h : step (a ++ b) s = some s') (hr : s'.rows.length = s.rows.length)
    (hs : SameWay s r) (hp : s.pos < a.length) :
    step a r = none ∨ ∃ r', step a r = some r' ∧ r'.rows = r.rows ∧ r'.rowStart = r.rowStart ∧ r'.bomScan = r.bomScan ∧
      (SameWay s' r' ∨ a.length ≤ r'.pos) ∧ (s'.pos < a.length → SameWay s' r') := by
  have hg : (a ++ b)[s.pos]? = a[s.pos]? := List.getElem?_append_left hp
  have hc : ∀ c, r.compoundFlag c = s.compoundFlag c := fun c => by unfold compoundFlag; rw [hs.q]
  unfold step at h ⊢
  rw [hg] at h
  rw [hs.pos]
  cases hcc : a[s.pos]? with
  | none => rw [hcc] at h; cases h
  | some c =>
  rw [hcc] at h
  simp only [hc] at h ⊢
  split at h
  · rename_i hf
    cases h
    exact .inr ⟨_, rfl, rfl, rfl, rfl, .inl ⟨hs.q, rfl, hs.start, rfl, rfl⟩, fun _ => ⟨hs.q, rfl, hs.start, rfl, rfl⟩⟩
  · cases h
    simp [pushRow, pushField] at hr
  · rename_i hf
    cases h
    refine .inr ⟨_, rfl, rfl, rfl, rfl, ?_⟩
    have e1 := skip_cut a b csvBlank (Nat.le_of_lt hp)
    have hfun : (fun c => decide (r.compoundFlag c = .notSpecial)) = fun c => decide (s.compoundFlag c = .notSpecial) := by
      funext c; rw [hc]
    generalize hP1 : skip (a ++ b) csvBlank s.pos = p1 at e1
    have hp2 := skip_le (a ++ b) (fun c => decide (s.compoundFlag c = .notSpecial)) p1
    have hlt : s.pos < (parseField (a ++ b) s).pos := by
      show s.pos < skip _ _ (skip _ csvBlank s.pos)
      rw [hP1]
      have := (step_lt (inp := a ++ b) (s := s) (s' := parseField (a ++ b) s) (by
        unfold step; rw [hg, hcc]; simp only [hf])).2
      have h' : (parseField (a ++ b) s).pos = skip (a ++ b) (fun c => decide (s.compoundFlag c = .notSpecial)) (skip (a ++ b) csvBlank s.pos) := rfl
      rw [h', hP1] at this
      exact this
    have hpos : (parseField (a ++ b) s).pos = skip (a ++ b) (fun c => decide (s.compoundFlag c = .notSpecial)) p1 := by
      show skip _ _ (skip _ csvBlank s.pos) = _
      rw [hP1]
    by_cases hp1 : p1 ≤ a.length
    · have e1' : skip a csvBlank s.pos = p1 := by rw [e1]; omega
      have e2 := skip_cut a b (fun c => decide (s.compoundFlag c = .notSpecial)) hp1
      have hrpos : (parseField a r).pos = skip a (fun c => decide (s.compoundFlag c = .notSpecial)) p1 := by
        show skip a (fun c => decide (r.compoundFlag c = .notSpecial)) (skip a csvBlank r.pos) = _
        rw [hfun, hs.pos, e1']
      have key : (parseField (a ++ b) s).pos < a.length → SameWay (parseField (a ++ b) s) (parseField a r) := by
        intro hlt'
        have e3 : skip a (fun c => decide (s.compoundFlag c = .notSpecial)) p1 = (parseField (a ++ b) s).pos := by
          rw [e2, ← hpos]; omega
        have ef : (parseField a r).fieldStart = (parseField (a ++ b) s).fieldStart := by
          show some (r.fieldStart.getD (skip a csvBlank r.pos - r.rowStart)) = some (s.fieldStart.getD (skip (a ++ b) csvBlank s.pos - s.rowStart))
          rw [hs.f, hs.pos, hs.start, e1', hP1]
        refine ⟨hs.q, by rw [hrpos, e3], hs.start, ef, ?_⟩
        show trimEnd a (skip a (fun c => decide (r.compoundFlag c = .notSpecial)) (skip a csvBlank r.pos) - 1)
            (skip a (fun c => decide (r.compoundFlag c = .notSpecial)) (skip a csvBlank r.pos) -
              (r.fieldStart.getD (skip a csvBlank r.pos - r.rowStart) + r.rowStart)) =
          trimEnd (a ++ b) (skip (a ++ b) (fun c => decide (s.compoundFlag c = .notSpecial)) (skip (a ++ b) csvBlank s.pos) - 1)
            (skip (a ++ b) (fun c => decide (s.compoundFlag c = .notSpecial)) (skip (a ++ b) csvBlank s.pos) -
              (s.fieldStart.getD (skip (a ++ b) csvBlank s.pos - s.rowStart) + s.rowStart))
        rw [hfun, hs.f, hs.pos, hs.start, e1', hP1, e3, ← hpos]
        exact trimEnd_cut a b _ _ (by omega)
      refine ⟨?_, key⟩
      by_cases hlt' : (parseField (a ++ b) s).pos < a.length
      · exact .inl (key hlt')
      · refine .inr ?_
        rw [hrpos, e2, ← hpos]
        omega
    · have e1' : skip a csvBlank s.pos = a.length := by rw [e1]; omega
      refine ⟨.inr ?_, fun hlt' => ?_⟩
      · show a.length ≤ skip a _ (skip a csvBlank r.pos)
        rw [hs.pos, e1']
        exact skip_le _ _ _
      · rw [hpos] at hlt'
        omega
  · rename_i hf
    by_cases hp1 : s.pos + 1 < a.length
    · rw [List.getElem?_append_left hp1] at h
      split at h
      · cases h
      · rename_i d hd
        try rw [hd]
        try simp only
        right
        split at h
        · rename_i hx
          cases h
          try rw [hx]
          exact ⟨_, rfl, rfl, rfl, rfl, .inl ⟨rfl, rfl, hs.start, hs.f, hs.l⟩, fun _ => ⟨rfl, rfl, hs.start, hs.f, hs.l⟩⟩
        · rename_i hx
          cases h
          try rw [hx]
          exact ⟨_, rfl, rfl, rfl, rfl, .inl ⟨rfl, rfl, hs.start, hs.f, hs.l⟩, fun _ => ⟨rfl, rfl, hs.start, hs.f, hs.l⟩⟩
        · rename_i hx
          cases h
          try rw [hx]
          exact ⟨_, rfl, rfl, rfl, rfl, .inl ⟨hs.q, rfl, hs.start, hs.f, by simp only [hs.l]⟩, fun _ => ⟨hs.q, rfl, hs.start, hs.f, by simp only [hs.l]⟩⟩
        · rename_i hx1 hx2 hx3
          cases h
          exact ⟨_, rfl, rfl, rfl, rfl, .inl ⟨hs.q, rfl, hs.start, hs.f, by simp only [hs.l]⟩, fun _ => ⟨hs.q, rfl, hs.start, hs.f, by simp only [hs.l]⟩⟩
    · rw [List.getElem?_eq_none (by omega : a.length ≤ s.pos + 1)]
      exact .inl rfl
  · rename_i hf
    right
    split at h
    · rename_i h0
      cases h
      rw [if_pos (by rw [hs.l]; exact h0)]
      refine ⟨_, rfl, rfl, rfl, rfl, ?_⟩
      by_cases hp1 : s.pos + 1 < a.length
      · have hg1 : (a ++ b)[s.pos + 1]? = a[s.pos + 1]? := List.getElem?_append_left hp1
        have : SameWay { s with quoteEscape := true, pos := s.pos + 1
                                fieldStart := match s.fieldStart, (a ++ b)[s.pos + 1]? with
                                  | none, some d => if csvBlank d then none else some (s.pos + 1 - s.rowStart)
                                  | f, _ => f }
            { r with quoteEscape := true, pos := s.pos + 1
                     fieldStart := match r.fieldStart, a[s.pos + 1]? with
                       | none, some d => if csvBlank d then none else some (s.pos + 1 - r.rowStart)
                       | f, _ => f } := ⟨rfl, rfl, hs.start, by simp only [hg1, hs.f, hs.start], hs.l⟩
        exact ⟨.inl this, fun _ => this⟩
      · exact ⟨.inr (by show a.length ≤ s.pos + 1; omega), fun h => absurd h hp1⟩
    · rename_i h0
      cases h
      rw [if_neg (by rw [hs.l]; exact h0)]
      exact ⟨_, rfl, rfl, rfl, rfl, .inl ⟨hs.q, rfl, hs.start, hs.f, by simp only [hs.l]⟩, fun _ => ⟨hs.q, rfl, hs.start, hs.f, by simp only [hs.l]⟩⟩

theorem loop_end {a : List Char} {r : CsvParser} (h : a.length ≤ r.pos) : ∀ n, loop a n r = r
  | 0 => rfl
  | n + 1 => by
    have : step a r = none := by unfold step; rw [List.getElem?_eq_none h]
    rw [loop, this]

/-- While the parser of all the data completes no row, the parser of the first part completes none either. -/
theorem loop_cut {a b : List Char} {s s' : CsvParser} (h : Reach (a ++ b) s s') : s'.rows.length = s.rows.length → a.length ≤ s'.pos →
    ∀ r, SameWay s r → ∀ n, (loop a n r).rows = r.rows ∧ (loop a n r).rowStart = r.rowStart ∧ (loop a n r).bomScan = r.bomScan := by
  induction h with
  | refl s =>
    intro _ hp r hs n
    rw [loop_end (by rw [hs.pos]; exact hp)]
    exact ⟨rfl, rfl, rfl⟩
  | @next s s1 s2 e hreach ih =>
    intro hr hp r hs n
    by_cases hlt : s.pos < a.length
    · have h1 := step_grows e
      have h2 := reach_grows hreach
      cases n with
      | zero => exact ⟨rfl, rfl, rfl⟩
      | succ n =>
        rw [loop]
        rcases step_cut e (by omega) hs hlt with h0 | ⟨r', h0, g1, g2, g3, g4, -⟩
        · rw [h0]
          exact ⟨rfl, rfl, rfl⟩
        · rw [h0]
          show (loop a n r').rows = _ ∧ (loop a n r').rowStart = _ ∧ (loop a n r').bomScan = _
          rcases g4 with g4 | g4
          · obtain ⟨k1, k2, k3⟩ := ih (by omega) hp r' g4 n
            exact ⟨k1.trans g1, k2.trans g2, k3.trans g3⟩
          · rw [loop_end g4]
            exact ⟨g1, g2, g3⟩
    · rw [loop_end (by rw [hs.pos]; omega)]
      exact ⟨rfl, rfl, rfl⟩

end CsvParser

open CsvParser

theorem read_tight {ends : List (List Char)} (hends : ∀ e ∈ ends, oneLineEnd e) {rows : List (List (List Char))} {text : List Char}
    (h : TightText ends rows text) {n : Nat} (hb : hasBom text = false) (hn : text.length ≤ n) : csvRead n text = some rows := by
  rw [csvRead, csvChunks]
  simp only [List.take_of_length_le hn, hn, if_true]
  obtain ⟨b, hp⟩ := parse_start (s := {}) hb
  rw [hp]
  obtain ⟨s', h1, h2, h3⟩ := tightText_reach hends h [] (by simp) { bomScan := b }
    { q := rfl, f := rfl, l := rfl, fs := rfl, pos := rfl, start := Nat.le_refl _ }
  rw [List.nil_append] at h1 h2 h3
  rw [loop_reach h1 h2 _ (by simp), h3]
  rfl

/-! ## Chunks -/

theorem shortTight_tight {n : Nat} {rows : List (List (List Char))} {ts : List Char} (h : ShortTight n rows ts) :
    TightText [['\n']] rows ts := by
  induction h with
  | done => exact .done
  | last h1 h2 h3 _ => exact .last h1 h2 h3
  | line h1 h2 _ _ ih => exact .line h1 h2 (by simp) ih

/-- Complete lines only. -/
inductive FullTight : List (List (List Char)) → List Char → Prop
  | done : FullTight [] []
  | line {row t rows ts} : RowOf WritesTight row t → t ≠ [] → FullTight rows ts → FullTight (row :: rows) (t ++ ['\n'] ++ ts)

/-- The first `m` characters: complete lines and a part of the next row. -/
theorem shortTight_cut {n : Nat} {rows : List (List (List Char))} {ts : List Char} (h : ShortTight n rows ts) :
    ∀ m, m < ts.length → ∃ rows1 rows2 L R row t k, FullTight rows1 L ∧ ShortTight n rows2 R ∧ rows = rows1 ++ rows2 ∧ ts = L ++ R ∧
      ts.take m = L ++ t.take k ∧ RowOf WritesTight row t ∧ t ≠ [] ∧ (n ≤ m → L ≠ []) := by
  induction h with
  | done => intro m hm; cases hm
  | @last row t h1 h2 h3 h4 =>
    intro m hm
    exact ⟨[], [row], [], t, row, t, m, .done, .last h1 h2 h3 h4, rfl, rfl, rfl, h1, h2, fun h => by omega⟩
  | @line row t rows ts h1 h2 h3 h4 ih =>
    intro m hm
    by_cases hlt : m ≤ t.length
    · refine ⟨[], row :: rows, [], t ++ ['\n'] ++ ts, row, t, m, .done, .line h1 h2 h3 h4, rfl, rfl, ?_, h1, h2, fun h => by omega⟩
      rw [List.append_assoc, List.take_append_of_le_length hlt, List.nil_append]
    · obtain ⟨rows1, rows2, L, R, row', t', k, g1, g2, g3, g4, g5, g6, g7, -⟩ := ih (m - (t.length + 1)) (by simp at hm; omega)
      refine ⟨row :: rows1, rows2, t ++ ['\n'] ++ L, R, row', t', k, .line h1 h2 g1, g2, by rw [g3]; rfl, by rw [g4]; simp, ?_, g6, g7,
        fun _ => by simp⟩
      rw [List.append_assoc (t ++ ['\n']), ← g5, List.take_append]
      rw [List.take_of_length_le (by simp; omega)]
      simp

theorem fullTight_reach {rows : List (List (List Char))} {L : List Char} (h : FullTight rows L) : ∀ (pre p : List Char),
    (∀ d, p.head? = some d → csvFlag d ≠ .newline) → ∀ s : CsvParser, RowStart pre s → (L = [] → s.rowStart = pre.length) →
    ∃ s', Reach (pre ++ L ++ p) s s' ∧ RowStart (pre ++ L) s' ∧ s'.rowStart = (pre ++ L).length ∧ s'.rows = s.rows ++ rows ∧
      s'.bomScan = s.bomScan := by
  induction h with
  | done =>
    intro pre p hp s hs h0
    rw [List.append_nil]
    exact ⟨s, .refl _, hs, h0 rfl, by simp, rfl⟩
  | @line row t rows ts hw ht hl ih =>
    intro pre p hp s hs _
    have hhead : ∀ d, (ts ++ p).head? = some d → csvFlag d ≠ .newline := by
      intro d hd
      cases hl with
      | done => exact hp d (by simpa using hd)
      | @line row' t' rows' ts' g1 g2 g3 => exact tightRow_head g1 (['\n'] ++ ts' ++ p) g2 d (by simpa using hd)
    have hb : Breaks ['\n'] (ts ++ p) := .inl ⟨'\n', rfl, by decide, hhead⟩
    obtain ⟨s1, h1, h2, h3, h4, h5, h6, h7⟩ := tightRow_reach hw pre (['\n'] ++ (ts ++ p)) hb.ends (by simp) s hs.toAtStart hs.pos hs.start
    have e0 : pre ++ t ++ (['\n'] ++ (ts ++ p)) = pre ++ t ++ ['\n'] ++ (ts ++ p) := by simp
    rw [e0] at h1 h5
    have hstep := newline_step (s := s1) (pre := pre ++ t) hb (by rw [h2, List.length_append]) h3
    obtain ⟨s2, k1, k2, k3, k4, k5⟩ := ih (pre ++ t ++ ['\n']) p hp
      ({ pushRow (pushField (pre ++ t ++ ['\n'] ++ (ts ++ p)) s1) with
        pos := (pre ++ t).length + ['\n'].length, rowStart := (pre ++ t).length + ['\n'].length, fields := [] } : CsvParser)
      { q := h3, f := rfl, l := rfl, fs := rfl, pos := List.length_append.symm, start := Nat.le_of_eq List.length_append.symm }
      (fun _ => List.length_append.symm)
    have e1 : pre ++ (t ++ ['\n'] ++ ts) ++ p = pre ++ t ++ ['\n'] ++ (ts ++ p) := by simp
    have e2 : pre ++ (t ++ ['\n'] ++ ts) = pre ++ t ++ ['\n'] ++ ts := by simp
    have e3 : pre ++ t ++ ['\n'] ++ ts ++ p = pre ++ t ++ ['\n'] ++ (ts ++ p) := by simp
    rw [e1, e2]
    rw [e3] at k1
    refine ⟨s2, h1.trans (.next hstep k1), k2, k3, ?_, k5.trans h4⟩
    rw [k4]
    show s1.rows ++ [s1.fields ++ [getField _ s1]] ++ rows = _
    rw [h5, h6, hs.fs]; simp

/-- A file in one chunk, or the last chunk. -/
theorem read_tight_last {ends : List (List Char)} (hends : ∀ e ∈ ends, oneLineEnd e) {rows : List (List (List Char))} {text : List Char}
    (h : TightText ends rows text) {n k : Nat} {s : CsvParser} (hb : hasBom text = false) (hn : text.length ≤ n) :
    csvChunks n (k + 1) s text = some rows := by
  rw [csvChunks]
  simp only [List.take_of_length_le hn, hn, if_true]
  obtain ⟨b, hp⟩ := parse_start (s := { doubleQuote := s.doubleQuote, bomScan := s.bomScan }) hb
  rw [hp]
  obtain ⟨s', h1, h2, h3⟩ := tightText_reach hends h [] (by simp) { doubleQuote := s.doubleQuote, bomScan := b }
    { q := rfl, f := rfl, l := rfl, fs := rfl, pos := rfl, start := Nat.le_refl _ }
  rw [List.nil_append] at h1 h2 h3
  rw [loop_reach h1 h2 _ (by simp), h3]
  rfl

/-- A file in several chunks. The chunk may end within a value in quotation marks. -/
theorem read_tight_chunks {n : Nat} : ∀ (k : Nat) (rows : List (List (List Char))) (text : List Char), ShortTight n rows text →
    text.length < k → ∀ s : CsvParser, Char.ofNat 0xEF ∉ text → csvChunks n k s text = some rows := by
  intro k
  induction k with
  | zero => intro _ _ _ h; cases h
  | succ k ih =>
    intro rows text h hk s hb
    by_cases hn : text.length ≤ n
    · exact read_tight_last (by simp [oneLineEnd]; decide) (shortTight_tight h) (hasBom_false hb) hn
    · obtain ⟨rows1, rows2, L, R, row, t, c, g1, g2, g3, g4, g5, g6, g7, g8⟩ := shortTight_cut h n (by omega)
      have hL := g8 (Nat.le_refl _)
      have hbp : Char.ofNat 0xEF ∉ L ++ t.take c := fun hh => hb (List.mem_of_mem_take (by rw [g5]; exact hh))
      rw [csvChunks]
      simp only [hn, if_false, g5]
      obtain ⟨b, hp⟩ := parse_start (s := { doubleQuote := s.doubleQuote, bomScan := s.bomScan }) (hasBom_false hbp)
      rw [hp]
      have hhead : ∀ d, (t.take c).head? = some d → csvFlag d ≠ .newline := by
        intro d hd
        refine tightRow_head g6 [] g7 d ?_
        cases t with
        | nil => exact absurd rfl g7
        | cons x t =>
          cases c with
          | zero => cases hd
          | succ c => simpa using hd
      obtain ⟨s', k1, k2, k3, k4, k5⟩ := fullTight_reach g1 [] (t.take c) hhead { doubleQuote := s.doubleQuote, bomScan := b }
        { q := rfl, f := rfl, l := rfl, fs := rfl, pos := rfl, start := Nat.le_refl _ } (fun _ => rfl)
      rw [List.nil_append] at k1 k2 k3
      obtain ⟨m, m1, m2⟩ := loop_reach' k1 (L ++ t.take c).length (by simp)
      have hin : (loop (L ++ t.take c) m s').rows = s'.rows ∧ (loop (L ++ t.take c) m s').rowStart = s'.rowStart ∧
          (loop (L ++ t.take c) m s').bomScan = s'.bomScan := by
        obtain ⟨s2, r1, r2, -, -, -, r6, r7⟩ := tightRow_reach g6 L ['\n'] (by
          intro d hd
          simp only [List.head?_cons, Option.some.injEq] at hd
          subst hd
          simp) (by simp) s' k2.toAtStart k2.pos k2.start
        have e : L ++ t ++ ['\n'] = (L ++ t.take c) ++ (t.drop c ++ ['\n']) := by
          rw [List.append_assoc L (t.take c), ← List.append_assoc (t.take c), List.take_append_drop, List.append_assoc]
        rw [e] at r1
        exact loop_cut r1 (by rw [r6]) (by rw [r2, List.length_append, List.length_take]; omega) s' ⟨rfl, rfl, rfl, rfl, rfl⟩ m
      rw [m2, hin.1, hin.2.1, k3, k4]
      have hlen : L.length ≠ 0 := fun hh => hL (List.length_eq_zero_iff.1 hh)
      rw [if_neg hlen, show text.drop L.length = R by rw [g4, List.drop_left]]
      have hbR : Char.ofNat 0xEF ∉ R := fun hh => hb (by rw [g4]; simp [hh])
      have hlenR : R.length < k := by rw [g4, List.length_append] at hk; omega
      rw [ih rows2 R g2 hlenR _ hbR, g3]
      rfl

end DRAMPower
