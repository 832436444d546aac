import Verif.FaultTable.Model

/-! # Specification for reading fault multiplier tables -/

namespace Verif.FaultTable
open Verif.Py

variable {K : Type}

/-- What the lines of a file say: blank lines and those beginning with ! or C are left out, as is the rest of a line from a !. -/
inductive Says : List (List Char) → List (List Word) → Prop
  | done : Says [] []
  | blank {l : List Char} {file ws} : (∀ c ∈ l, isWS c = true) → Says file ws → Says (l :: file) ws
  | comment {b : List Char} {c : Char} {rest : List Char} {file ws} : (∀ x ∈ b, isWS x = true) → c = '!' ∨ c = 'C' → Says file ws → Says ((b ++ c :: rest) :: file) ws
  | words {b : List Char} {c : Char} {body rest : List Char} {file ws} : (∀ x ∈ b, isWS x = true) → isWS c = false → c ≠ 'C' → '!' ∉ b ++ c :: body →
      rest = [] ∨ (∃ r, rest = '!' :: r) → Says file ws → Says ((b ++ c :: body ++ rest) :: file) (splitWS (c :: body) :: ws)

/-- A line which sets the grid or the name of the fault. -/
inductive Head where
  | grid (g : Word) (more : List Word)
  | name (n : Word) (more : List Word)

/-- The words of such a line. -/
def Head.words : Head → List Word
  | .grid g more => "GRID".toList :: g :: more
  | .name n more => "FNAME".toList :: n :: more

/-- The last grid which is set, or the one before. -/
def gridOf (g : Word) : List Head → Word
  | [] => g
  | .grid g' _ :: hs => gridOf g' hs
  | .name _ _ :: hs => gridOf g hs

/-- The last name which is set, or the one before. -/
def nameOf (n : Word) : List Head → Word
  | [] => n
  | .name n' _ :: hs => nameOf n' hs
  | .grid _ _ :: hs => nameOf n hs

/-- A table: direction and options of the keyword, further settings, the words of the rows, and other lines before the next table. -/
structure Table where
  dir : Word
  options : List Word
  heads : List Head
  rows : List (List Word)
  after : List (List Word)

/-- All lines of a table. -/
def Table.words (t : Table) : List (List Word) := ("MULT".toList :: t.dir :: t.options) :: t.heads.map Head.words ++ t.rows ++ t.after

/-- Direction of the faces: X, Y and Z are the same as I, J and K. -/
def dirOf (d : Word) : Option Word :=
  if d = "TX".toList ∨ d = "TI".toList then some "I".toList else if d = "TY".toList ∨ d = "TJ".toList then some "J".toList
  else if d = "TZ".toList ∨ d = "TK".toList then some "K".toList else none

/-- The faces of a table. -/
def Table.face (t : Table) (d : Word) : Word := if "MINUS".toList ∈ t.options then d ++ ['-'] else d

/-- The row which words stand for. -/
def IsRow (R : Reader K) (grid name face : Word) (ws : List Word) (r : Row K) : Prop :=
  ∃ a b c d e f g, ws = [a, b, c, d, e, f, g] ∧ R.isNum a = true ∧ R.int? a = some r.i1 ∧ R.int? b = some r.i2 ∧ R.int? c = some r.j1 ∧ R.int? d = some r.j2 ∧
    R.int? e = some r.k1 ∧ R.int? f = some r.k2 ∧ R.num? g = some r.mult ∧ r.grid = grid ∧ r.name = name ∧ r.face = face

/-- A table stands for rows.  Other lines come only after rows, do not begin with a number at first and do not begin a table. -/
structure Stands (R : Reader K) (t : Table) (rs : List (Row K)) : Prop where
  rows : ∃ d, dirOf t.dir = some d ∧ List.Forall₂ (IsRow R (gridOf "ROOT".toList t.heads) (nameOf "NONE".toList t.heads) (t.face d)) t.rows rs
  after : ∀ ws ∈ t.after, ws ≠ [] ∧ ws.head? ≠ some "MULT".toList
  first : ∀ ws, t.after.head? = some ws → t.rows ≠ [] ∧ ∀ w, ws.head? = some w → R.isNum w = false

/-- Keywords are not numbers, nor parts of numbers. -/
structure Reader.Keywords (R : Reader K) : Prop where
  mult : R.isNum "MULT".toList = false
  grid : ∀ w, R.isNum w = true → ¬ "GRID".toList <:+: w
  name : ∀ w, R.isNum w = true → ¬ "FNAME".toList <:+: w

/-- Rows of the lines of a file, each with what the last header before it says. -/
def tableOf (value : K → K) : Option (Nat × Nat × String) → List (Gcs.Line K) → List (Row K)
  | _, [] => []
  | _, .header axis pol name :: ls => tableOf value (some (axis, pol, name)) ls
  | none, .row .. :: ls => tableOf value none ls
  | some (axis, pol, name), .row i1 i2 j1 j2 k1 k2 m :: ls =>
    ⟨i1, i2, j1, j2, k1, k2, value m, "ROOT".toList, name.toList, (if axis = 0 then ['K'] else if axis = 1 then ['J'] else ['I']) ++ (if pol = 0 then ['-'] else [])⟩ ::
      tableOf value (some (axis, pol, name)) ls

end Verif.FaultTable
