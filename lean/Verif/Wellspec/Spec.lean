import Verif.Wellspec.Model
import Verif.Keywords.Spec

/-!
# Specification: WELLSPEC files
-/

namespace Verif.Wellspec
open Verif.Py Verif.Keywords

section
variable (upper : Word → Word)

/-- The lines which begin with a keyword, by number, counted from nought, in words. -/
def marked (keyword : Word) (file : File) : List (Nat × Line) :=
  (file.zipIdx.map fun li => (li.2, splitWS li.1)).filter fun x => firstWordIs upper keyword x.2

/-- The names after WELLSPEC, in order. -/
def namesIn (file : File) : List Word := (marked upper "WELLSPEC".toList file).filterMap fun x => x.2[1]?

/-- Each once, where it is first. -/
def firsts : List Word → List Word
  | [] => []
  | a :: l => a :: (firsts l).filter fun b => b ≠ a

/-- Where the tables of a well begin: after the lines with WELLSPEC and its name. -/
def placesOf (name : Word) (file : File) : List Nat :=
  ((marked upper "WELLSPEC".toList file).filter fun x => x.2[1]? = some name).map fun x => x.1 + 1

/-- The date which a line with TIME gives: the second word, up to a bracket. -/
def dateIn {D : Type} (parse : Word → Option D) (l : Line) : Option D := l[1]?.bind fun w => parse (w.takeWhile fun c => c ≠ '(')

/-- The date of the last line with TIME before a place. -/
def dateBefore {D : Type} (parse : Word → Option D) (file : File) (p : Nat) : Option D :=
  (((marked upper "TIME".toList file).filter fun x => x.1 + 1 < p).getLast?).bind fun x => dateIn parse x.2

/-! ### Tables -/

/-- A line with nothing on it. -/
def Blank (line : List Char) : Prop := splitWS line = []

/-- A line of comment. -/
def Bang (line : List Char) : Prop := ∃ w rest, splitWS line = w :: rest ∧ w[0]? = some '!'

/-- A line of comment, marked with a letter. -/
def LetterC (line : List Char) : Prop := ∃ w rest, splitWS line = w :: rest ∧ (w = ['C'] ∨ w = ['c'])

/-- A line which ends a table. -/
def Stop (line : List Char) : Prop := ∃ k ∈ ["WELLSPEC".toList, "WELLMOD".toList, "TIME".toList, "INCLUDE".toList], firstWordIs upper k (splitWS line) = true

/-- What follows the header, and the rows of values in it.  The flag tells if there was a blank line, but for comments, just before. -/
inductive Body : Bool → List (List Char) → List (List Word) → Prop
  | eof (b) : Body b [] []
  | stop {b line rest} : Stop upper line → ¬ Bang line → ¬ LetterC line → Body b (line :: rest) []
  | blank {b line rest rows} : Blank line → Body true rest rows → Body b (line :: rest) rows
  | bang {b line rest rows} : Bang line → Body b rest rows → Body b (line :: rest) rows
  | letter {line rest rows} : LetterC line → Body false rest rows → Body false (line :: rest) rows
  | row {b line rest rows} : ¬ Blank line → valuesOf line ≠ [] → ¬ Bang line → ¬ LetterC line → ¬ Stop upper line → Body false rest rows →
      Body b (line :: rest) (valuesOf line :: rows)

/-- The table at a place: blank lines and comments, the line of names, and what follows. -/
structure Layout (file : File) (pointer : Nat) (names : List Word) (rows : List (List Word)) : Prop where
  ex : ∃ pre header body, file.drop pointer = pre ++ header :: body ∧ (∀ l ∈ pre, Blank l ∨ Bang l ∨ LetterC l) ∧
    ¬ Blank header ∧ ¬ Bang header ∧ ¬ LetterC header ∧ names = (valuesOf header).map upper ∧ Body upper false body rows
  some : names ≠ []
  nodup : names.Nodup

/-- The value for a column in a row. -/
def CellOk (conv : Word → Word → Res Cell) (names values : List Word) (col : Word) (c : Cell) : Prop :=
  (∃ (m : Nat) (v : Word), names[m]? = some (upper col) ∧ values[m]? = some v ∧
    ((v = "NA".toList ∧ c = .nan) ∨ (v = "#".toList ∧ c = .text v) ∨ (v ≠ "NA".toList ∧ v ≠ "#".toList ∧ conv (upper col) v = .ok c))) ∨
  (upper col ∉ names ∧ c = if upper col = "GRID".toList then .text "ROOT".toList else .nan)

/-- The row for a line. -/
def RowOk (conv : Word → Word → Res Cell) (names cols values : List Word) (cells : List Cell) : Prop :=
  names.length ≤ values.length ∧ List.Forall₂ (CellOk upper conv names values) cols cells

end

/-! ### What is done with the values -/

/-- The value of a column in a row of a table. -/
def valueAt (t : Table) (col : Word) (row : List Cell) : Option Cell := row[t.cols.idxOf col]?

/-- A whole number which comes of a number when what is after the point is dropped. -/
def Trunc (q : ℚ) (n : Int) : Prop := (0 ≤ q → (n : ℚ) ≤ q ∧ q < n + 1) ∧ (q < 0 → q ≤ n ∧ (n : ℚ) - 1 < q)

/-- A value in the end: the status is one if it is ON, else nought; indices are whole numbers; all else is as it was read. -/
def FinalOk (col : Word) (c c' : Cell) : Prop :=
  (col = "STAT".toList → c' = .int (if c = .text "ON".toList then 1 else 0)) ∧
  (col ∈ ["IW".toList, "JW".toList, "L".toList, "LAYER".toList] → ∃ n, c' = .int n ∧ (c = .int n ∨ ∃ q, c = .num q ∧ Trunc q n)) ∧
  (col ∉ ["IW".toList, "JW".toList, "L".toList, "LAYER".toList, "STAT".toList] → c' = c)

/-- Rows after which there is no row alike. -/
def lasts {α : Type} (alike : α → α → Bool) (rows : List α) : List α :=
  (List.range rows.length).filterMap fun i => rows[i]?.bind fun r => if (rows.drop (i + 1)).any (alike r) then none else some r

/-- Rows for the same cell of the grid. -/
def sameCell (t : Table) (r s : List Cell) : Bool :=
  ["IW".toList, "JW".toList, "L".toList].all fun c => decide (valueAt t c r = valueAt t c s)

end Verif.Wellspec
