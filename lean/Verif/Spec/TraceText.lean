/-!
# How rows are written as text

Independent of the parser: which texts write a list of rows. Values contain no comma, quotation mark or line end and neither begin nor
end with a blank.
-/

namespace DRAMPower.Spec

/-- Blanks that may surround a value. -/
def blanks : List Char := [' ', '\t']

/-- A value that can be written without quotation marks. -/
def Plain (v : List Char) : Prop :=
  (∀ c ∈ v, c ∉ [',', '"', '\n', '\r']) ∧ (∀ c, v.head? = some c → c ∉ blanks) ∧ ∀ c, v.getLast? = some c → c ∉ blanks

instance (v : List Char) : Decidable (Plain v) := by
  unfold Plain
  have h : ∀ o : Option Char, Decidable (∀ c, o = some c → c ∉ blanks) := fun o => match o with
    | none => .isTrue (fun _ h => nomatch h)
    | some d => if hd : d ∈ blanks then .isFalse (fun h => h d rfl hd) else .isTrue (fun c h => by cases h; exact hd)
  have h1 := h v.head?
  have h2 := h v.getLast?
  infer_instance

/-- The text of a field: the value, with blanks around it. -/
inductive WritesField : List Char → List Char → Prop
  | mk (a v b : List Char) : (∀ c ∈ a, c ∈ blanks) → Plain v → (∀ c ∈ b, c ∈ blanks) → WritesField v (a ++ v ++ b)

/-- The text of a row: its fields separated by commas. -/
inductive WritesRow : List (List Char) → List Char → Prop
  | one {v t} : WritesField v t → WritesRow [v] t
  | more {v t vs ts} : WritesField v t → WritesRow vs ts → WritesRow (v :: vs) (t ++ ',' :: ts)

/-- Line ends of Unix and Windows. -/
def lineEnds : List (List Char) := [['\n'], ['\r', '\n']]

/-- The text of a file: the rows, each with a line end (the last one possibly without); empty lines are no rows. -/
inductive WritesText : List (List (List Char)) → List Char → Prop
  | done : WritesText [] []
  | empty {e rows ts} : e ∈ lineEnds → WritesText rows ts → WritesText rows (e ++ ts)
  | last {row t} : WritesRow row t → t ≠ [] → WritesText [row] t
  | line {row t e rows ts} : WritesRow row t → t ≠ [] → e ∈ lineEnds → WritesText rows ts → WritesText (row :: rows) (t ++ e ++ ts)

/-! ## Restricted texts -/

/-- A row of which the last field is not lost at the end of the file: it is not empty, or nothing follows the comma before it. -/
def LastKept (row : List (List Char)) (t : List Char) : Prop := (∃ v, row.getLast? = some v ∧ v ≠ []) ∨ t.getLast? = some ','

/-- Rows with line ends of one or two characters; the last row possibly without. -/
inductive Lines (ends : List (List Char)) : List (List (List Char)) → List Char → Prop
  | done : Lines ends [] []
  | last {row t} : WritesRow row t → t ≠ [] → LastKept row t → Lines ends [row] t
  | line {row t e rows ts} : WritesRow row t → t ≠ [] → e ∈ ends → Lines ends rows ts → Lines ends (row :: rows) (t ++ e ++ ts)

/-- Rows of at most `n` characters with a line end of one character each; the last row possibly without. -/
inductive ShortLines (n : Nat) : List (List (List Char)) → List Char → Prop
  | done : ShortLines n [] []
  | last {row t} : WritesRow row t → t ≠ [] → LastKept row t → t.length ≤ n → ShortLines n [row] t
  | line {row t rows ts} : WritesRow row t → t ≠ [] → t.length + 1 ≤ n → ShortLines n rows ts →
      ShortLines n (row :: rows) (t ++ ['\n'] ++ ts)

end DRAMPower.Spec
