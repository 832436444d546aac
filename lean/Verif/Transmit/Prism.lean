import Verif.Rotate.Model
import Verif.Plane.Measure

/-!
# Model: half cell transmissibilities of vertical prism grids

`/repo/resqpy/olio/transmission.py` 366-490 and `/repo/resqpy/unstructured/_prism_grid.py` 307-319, 411-417, 473-493, 520-693.
Numbers are real numbers and functions of the standard library exact (simplification); NaN is `none`.
-/

namespace Verif.Transmit.Prism
open Verif.Py
open Verif.Wells.Survey (V3 radians)
open Verif.Rotate (azimuthOfArray)
open Verif.Plane (heron length2d)

noncomputable section

/-- the corners of the triangle of a column, in order; transmission.py:451-455 `p[t]` -/
abbrev Tri := Fin 3 → V3

/-- transmission.py:457-458 the centre in xy; component `c` is 0 for x and 1 for y -/
def centre (t : Tri) (c : Fin 3) : ℝ := (t 0 c + t 1 c + t 2 c) / 3

/-- transmission.py:459-463 the middle of the edge for place `e` -/
def edgeMidpoint (t : Tri) (e : Fin 3) (c : Fin 3) : ℝ := 1 / 2 * (t (e + 1) c + t (e + 2) c)

/-- transmission.py:464-468 the vector along the edge for place `e` -/
def edgeVector (t : Tri) (e : Fin 3) (c : Fin 3) : ℝ := t (e + 2) c - t (e + 1) c

/-- transmission.py:469-470 the vector from the centre to the middle of the edge -/
def cem (t : Tri) (e : Fin 3) (c : Fin 3) : ℝ := edgeMidpoint t e c - centre t c

/-- transmission.py:471 the length of that -/
def flowLength (t : Tri) (e : Fin 3) : ℝ := Real.sqrt (cem t e 0 * cem t e 0 + cem t e 1 * cem t e 1)

/-- transmission.py:472-478 the length of the edge across the direction of flow.  Simplification: `unit_vectors` applied to an array of
three dimensions blanks whole triangles when a vector of length zero is among them (C94); here no other triangle is affected. -/
def normalLength (t : Tri) (e : Fin 3) : ℝ :=
  let n := Real.sqrt (cem t e 1 * cem t e 1 + -cem t e 0 * -cem t e 0)
  if n = 0 then 0 else |edgeVector t e 0 * (cem t e 1 / n) + edgeVector t e 1 * (-cem t e 0 / n)|

/-- _prism_grid.py:480-493 the thickness of a cell, from the z values of its top and base corners -/
def thickness (top base : Tri) : ℝ := ((base 0 2 - top 0 2) + (base 1 2 - top 1 2) + (base 2 2 - top 2 2)) / 3

/-- transmission.py:413-414 area of the triangle in xy; vector_utilities.py:1461-1475 -/
def areaXY (t : Tri) : ℝ := heron (length2d (t 0 - t 1)) (length2d (t 1 - t 2)) (length2d (t 2 - t 0))

/-- transmission.py:398-436 the five values for one cell; `t` is the triangle of the column at the top of the grid -/
def halfCell (t : Tri) (thick : ℝ) (triple : Fin 3 → ℝ) (permK ntg : Option ℝ) (darcy tol : ℝ) (face : Fin 5) : Option ℝ :=
  let k := permK.getD ((triple 0 + triple 1 + triple 2) / 3)
  if face = 0 ∨ face = 1 then
    if 1 / 2 * thick < tol then none else some (k * areaXY t / (1 / 2 * thick) * darcy)
  else
    let e : Fin 3 := if face = 2 then 0 else if face = 3 then 1 else 2
    if flowLength t e < tol then none
    else some (triple e * normalLength t e / flowLength t e * ntg.getD 1 * darcy)

/-- _prism_grid.py:309-319 the corners of the triangle that the side face in place `2 + e` of a cell stands on -/
def sideFace (e : Fin 3) : Fin 3 × Fin 3 := (e - 1, e)

/-- _prism_grid.py:411-417 column_count -/
def columnCount (nk cells : Nat) : Res Nat :=
  if nk ≤ 1 then .error .assertion else if cells % nk ≠ 0 then .error .assertion else .ok (cells / nk)

/-- _prism_grid.py:552-561 the vector from the centre of a cell of the top layer to the middle of an edge at its top; the centre is the
mean of the six corners -/
def towardsSide (top base : Tri) (e : Fin 3) : V3 := fun c =>
  1 / 2 * (top e c + top (e - 1) c) - (top 0 c + top 1 c + top 2 c + base 0 c + base 1 c + base 2 c) / 6

/-- _prism_grid.py:562-583 triple_horizontal_permeability, for one cell and one side -/
def triplePermeability (top base : Tri) (primary orthogonal azimuth : ℝ) (e : Fin 3) : Option ℝ :=
  (azimuthOfArray (towardsSide top base e)).map fun a =>
    let ap := radians (a - azimuth)
    Real.sqrt (primary * primary * (Real.cos ap * Real.cos ap) + orthogonal * orthogonal * (Real.sin ap * Real.sin ap))

/-- _prism_grid.py:607-693 half_cell_transmissibility as far as a property of half cell values for the `n` cells is concerned: the truth
value of an array, of five values for each cell, is asked for.  `computed` stands for all that follows when there is no such property. -/
def halfCellTransmissibility {α : Type} (cached : Option α) (useProperty realNone : Bool) (stored : Option α) (computed : Res α) : Res α :=
  match (if realNone then cached else none) with
  | some h => .ok h
  | none =>
    match (if useProperty then stored else none) with
    | some _ => .error .value
    | none => computed

end

end Verif.Transmit.Prism
