import Verif.Defined.Model

/-!
# What is claimed about defined geometry

Written in terms of the points of the grid and the answers of the queries, without the masks of the code.
-/

namespace Verif.Defined
open Verif.Py

/-- The point is usable: all three coordinates are numbers, none of them the value to be treated as NaN. -/
def Point (tn : Option Rat) (p : Fin 3 → Option Rat) : Prop := ∀ c, ∃ v, p c = some v ∧ tn ≠ some v

/-- Number of the layer of points on top of a layer of cells. -/
def Dims.top (d : Dims) (k : Nat) : Nat := if d.kGaps then d.raw k else k

/-- The extent is consistent: the pillars include the primary pillars, and each layer of cells has a layer of points
above and one below. -/
def WF (d : Dims) : Prop := d.prim ≤ d.total ∧ ∀ k < d.nk, d.top k + 1 ≤ d.nraw

/-- All eight points of a cell, taken on the primary pillars, are usable. -/
def CellWhole (d : Dims) (tn : Option Rat) (pts : Pts) (k j i : Nat) : Prop :=
  ∀ dk dj di, dk ≤ 1 → dj ≤ 1 → di ≤ 1 → Point tn (pts (d.top k + dk) (d.pil (j + dj) (i + di)))

/-- The cell counts as inactive. -/
def Inactive (s : St) (k j i : Nat) : Prop := ∃ f, s.inactive = some f ∧ f k j i = true

/-- `a` and `b` are defined points of a pillar with only missing points between them. -/
def Adjacent (miss : Nat → Bool) (a b : Nat) : Prop :=
  a < b ∧ miss a = false ∧ miss b = false ∧ ∀ u, a < u → u < b → miss u = true

end Verif.Defined
