import Verif.RelPerm.Model

/-! # Specification for tables of relative permeability -/

namespace Verif.RelPerm

/-- A phase. -/
inductive Phase where
  | water
  | oil
  | gas
deriving DecidableEq

/-- The letter of a phase in names of columns. -/
def Phase.letter : Phase → Char
  | .water => 'w'
  | .oil => 'o'
  | .gas => 'g'

/-- The name of a phase. -/
def Phase.name : Phase → Word
  | .water => "water".toList
  | .oil => "oil".toList
  | .gas => "gas".toList

/-- The name of the column with the saturation of a phase. -/
def sat (p : Phase) : Word := ['S', p.letter]

/-- The name of the column with the relative permeability of a phase. -/
def kr (p : Phase) : Word := ['K', 'r', p.letter]

/-- The name of the column with capillary pressure. -/
def pc : Word := ['P', 'c']

/-- The saturation of the first phase, the permeabilities of both in any order, and possibly capillary pressure at the end. -/
def Layout (p q : Phase) (cols : List Word) : Prop :=
  cols = [sat p, kr p, kr q] ∨ cols = [sat p, kr q, kr p] ∨ cols = [sat p, kr p, kr q, pc] ∨ cols = [sat p, kr q, kr p, pc]

/-- The two phases and no others are named. -/
def Named (combo : Option Word) (p q : Phase) : Prop :=
  p.name ∈ phasesIn combo ∧ q.name ∈ phasesIn combo ∧ ∀ w ∈ phasesIn combo, w = p.name ∨ w = q.name

/-- No phases are named. -/
def Unnamed (combo : Option Word) : Prop := ∀ w ∈ phasesIn combo, w = "None".toList

/-- All spellings of a word in upper and lower case. -/
def spellings : Word → List Word
  | [] => [[]]
  | c :: cs => (spellings cs).flatMap fun w => [c.toLower :: w, c.toUpper :: w]

/-- The usual name for two phases. -/
def usual : Phase → Phase → Word
  | .water, .oil => "water-oil".toList
  | .oil, .water => "water-oil".toList
  | .gas, .oil => "gas-oil".toList
  | .oil, .gas => "gas-oil".toList
  | .gas, .water => "gas-water".toList
  | .water, .gas => "gas-water".toList
  | _, _ => []

/-- Values do not fall along the rows. -/
def Rises (l : List ℚ) : Prop := l.Pairwise (· ≤ ·)

/-- Values do not rise along the rows. -/
def Falls (l : List ℚ) : Prop := l.Pairwise (fun a b => b ≤ a)

/-- A table which may be used: in the columns named nothing is missing and all lies between 0 and 1, the saturation and the permeability of the phase rise while the
permeability of the other falls, or the other way around, and the capillary pressures which there are rise or fall. -/
structure Good (t : Frame) (p q : Phase) : Prop where
  layout : Layout p q t.cols
  whole : ∀ c ∈ [sat p, kr p, kr q], ∀ v ∈ t.column c, ∃ x : ℚ, v = some x ∧ 0 ≤ x ∧ x ≤ 1
  along : (Rises (present (t.column (sat p))) ∧ Rises (present (t.column (kr p))) ∧ Falls (present (t.column (kr q)))) ∨
    (Falls (present (t.column (sat p))) ∧ Falls (present (t.column (kr p))) ∧ Rises (present (t.column (kr q))))
  pressure : pc ∈ t.cols → Rises (present (t.column pc)) ∨ Falls (present (t.column pc))

/-- A number keeps its value when written as text and read, and the text has the characters of a number. -/
def Prints (fmt : ℚ → Word) (num : Word → Val) (x : ℚ) : Prop :=
  num (fmt x) = some x ∧ fmt x ≠ [] ∧ ∀ c ∈ fmt x, c ∈ "0123456789+-.e".toList

/-- A table which can be written and read: it is good, its saturation is of water or gas, there are rows, all as long as there are columns, and if there is a column for
capillary pressure then at least one is there. -/
structure Writable (t : Frame) (p q : Phase) : Prop where
  phases : p ≠ q
  notOil : p ≠ .oil
  good : Good t p q
  rows : t.rows ≠ []
  full : ∀ r ∈ t.rows, r.length = t.cols.length
  some : pc ∈ t.cols → ∃ r ∈ t.rows, t.get pc r ≠ none

/-- Tables written one after the other to a file. -/
def writeAll (fmt : ℚ → Word) : Option (List (List Char)) → List Rel → Verif.Py.Res (Option (List (List Char)))
  | file, [] => .ok file
  | file, r :: rs =>
    match toText fmt file r with
    | .error e => .error e
    | .ok new => writeAll fmt (some new) rs

end Verif.RelPerm
