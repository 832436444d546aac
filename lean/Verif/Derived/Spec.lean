import Verif.Derived.Unsplit

/-! # What is asked of grids derived from others -/

namespace Verif.Derived
open Verif.Py

variable {V : Type} [AddCommGroup V] [Module ℚ V]

/-- the columns which meet at the node in row `j` and column `i` of the nodes of a grid with `nj` by `ni` columns: the column and the
corner of it which is at the node -/
def around (nj ni j i : Nat) : List (Nat × Nat × Nat × Nat) :=
  ([(0, 0), (0, 1), (1, 0), (1, 1)].filter fun c => decide (c.1 ≤ j ∧ j - c.1 < nj ∧ c.2 ≤ i ∧ i - c.2 < ni)).map
    fun c => (j - c.1, i - c.2, c.1, c.2)

/-- the mean of a list of points -/
def mean (l : List V) : V := (1 / (l.length : ℚ)) • l.sum

/-- the point at a corner of a column, in a given plane -/
def cornerPoint (m : Pillars.Mapping) (pts : Nat → V) (c : Nat × Nat × Nat × Nat) : V := pts (m c.1 c.2.1 c.2.2.1 c.2.2.2)

end Verif.Derived
