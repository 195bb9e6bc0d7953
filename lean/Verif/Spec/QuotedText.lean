import Verif.Spec.TraceText
import Mathlib.Data.List.Basic

/-!
# How values with commas, quotation marks and line ends are written

Independent of the parser. A value that contains commas, quotation marks or line ends is written between quotation marks, each quotation
mark within it twice (RFC 4180, section 2).
-/

namespace DRAMPower.Spec

/-- The value with each quotation mark twice. -/
def doubled : List Char → List Char
  | [] => []
  | c :: cs => if c = '"' then '"' :: '"' :: doubled cs else c :: doubled cs

/-- The value between quotation marks. -/
def quoted (v : List Char) : List Char := '"' :: doubled v ++ ['"']

/-- The value neither begins nor ends with a blank (these are removed from values without quotation marks). -/
def Trimmed (v : List Char) : Prop := v.head? ∉ blanks.map some ∧ v.getLast? ∉ blanks.map some

instance (v : List Char) : Decidable (Trimmed v) := by unfold Trimmed; infer_instance

/-- The text of a field: the value as it is, or in quotation marks, with blanks around it. -/
inductive WritesValue : List Char → List Char → Prop
  | plain {v t} : WritesField v t → WritesValue v t
  | quoted (a v b : List Char) : (∀ c ∈ a, c ∈ blanks) → Trimmed v → (∀ c ∈ b, c ∈ blanks) → WritesValue v (a ++ quoted v ++ b)

/-- The text of a row: its fields separated by commas. -/
inductive RowOf (F : List Char → List Char → Prop) : List (List Char) → List Char → Prop
  | one {v t} : F v t → RowOf F [v] t
  | more {v t vs ts} : F v t → RowOf F vs ts → RowOf F (v :: vs) (t ++ ',' :: ts)

/-- The text of a file: its rows, each with a line end (the last one possibly without). -/
inductive TextOf (F : List Char → List Char → Prop) (ends : List (List Char)) : List (List (List Char)) → List Char → Prop
  | done : TextOf F ends [] []
  | last {row t} : RowOf F row t → t ≠ [] → TextOf F ends [row] t
  | line {row t e rows ts} : RowOf F row t → t ≠ [] → e ∈ ends → TextOf F ends rows ts → TextOf F ends (row :: rows) (t ++ e ++ ts)

/-! ## Restricted texts -/

/-- The value does not begin with a blank, and behind each of its blanks there is something else than quotation marks. -/
def Quotable (v : List Char) : Prop :=
  v.head? ∉ blanks.map some ∧ ∀ t ∈ v.tails, t.head? ∈ blanks.map some → ∃ c ∈ t.tail, c ≠ '"'

instance (v : List Char) : Decidable (Quotable v) := by unfold Quotable; infer_instance

/-- The text of a field: the value with blanks around it, or in quotation marks without blanks around them. -/
inductive WritesTight : List Char → List Char → Prop
  | plain {v t} : WritesField v t → WritesTight v t
  | quoted {v} : Quotable v → WritesTight v (quoted v)

/-- The text of a file with rows of such fields; if the last row has no line end its last value is not empty. -/
inductive TightText (ends : List (List Char)) : List (List (List Char)) → List Char → Prop
  | done : TightText ends [] []
  | last {row t} : RowOf WritesTight row t → t ≠ [] → (∀ v, row.getLast? = some v → v ≠ []) → TightText ends [row] t
  | line {row t e rows ts} : RowOf WritesTight row t → t ≠ [] → e ∈ ends → TightText ends rows ts →
      TightText ends (row :: rows) (t ++ e ++ ts)

/-- The same with Unix line ends, no row longer than `n` characters with its line end. -/
inductive ShortTight (n : Nat) : List (List (List Char)) → List Char → Prop
  | done : ShortTight n [] []
  | last {row t} : RowOf WritesTight row t → t ≠ [] → (∀ v, row.getLast? = some v → v ≠ []) → t.length ≤ n → ShortTight n [row] t
  | line {row t rows ts} : RowOf WritesTight row t → t ≠ [] → t.length + 1 ≤ n → ShortTight n rows ts →
      ShortTight n (row :: rows) (t ++ ['\n'] ++ ts)

end DRAMPower.Spec
