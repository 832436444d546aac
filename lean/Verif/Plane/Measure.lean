import Verif.Rotate.Model
import Verif.Geom.Model
import Verif.Polygon.Model

/-!
# Model: area, normal and circumcentre of triangles, nearest point, and sorting of points

`resqpy/olio/vector_utilities.py:1342-1363, 1428-1518`, `resqpy/olio/triangulation.py:287-303`.  Numbers are reals; not-a-number is `none`
where it is treated.
-/

namespace Verif.Plane
open Verif.Py Verif.Polygon
open Verif.Wells.Survey (V3)
open Verif.Rotate (unitVector length azimuth)

noncomputable section

/-- vector_utilities.py:1450-1458: Heron's formula from the lengths of the sides -/
def heron (la lb lc : ℝ) : ℝ :=
  let s := 1 / 2 * (la + lb + lc)
  Real.sqrt (s * (s - la) * (s - lb) * (s - lc))

/-- vector_utilities.py:1450-1458 `area_of_triangle` -/
def areaOfTriangle (a b c : V3) : ℝ := heron (length (a - b)) (length (b - c)) (length (c - a))

/-- vector_utilities.py:267-270 `naive_2d_lengths`, for one vector -/
def length2d (v : V3) : ℝ := Real.sqrt (v 0 * v 0 + v 1 * v 1)

/-- vector_utilities.py:1461-1475 `area_of_triangles`; the index arrays are lists of corners here -/
def areaOfTriangles (tris : List (V3 × V3 × V3)) (xyProjection : Bool) : List ℝ :=
  tris.map fun t =>
    if xyProjection then heron (length2d (t.1 - t.2.1)) (length2d (t.2.1 - t.2.2)) (length2d (t.2.2 - t.1))
    else heron (length (t.1 - t.2.1)) (length (t.2.1 - t.2.2)) (length (t.2.2 - t.1))

/-- `np.cross`; for `normalVector` (vector_utilities.py:1342-1351) -/
def cross3 (u v : V3) : V3 := ![u 1 * v 2 - u 2 * v 1, u 2 * v 0 - u 0 * v 2, u 0 * v 1 - u 1 * v 0]

/-- vector_utilities.py:1342-1351 `triangle_normal_vector` -/
def normalVector (a b c : V3) : V3 := unitVector (cross3 (a - b) (a - c))

/-- vector_utilities.py:1354-1363 `triangle_normal_vector_numba`; `none` where nought is divided by nought -/
def normalVectorNumba (a b c : V3) : Option V3 :=
  let v := cross3 (a - b) (a - c)
  if length v = 0 then none else some ((1 / length v) • v)

/-- triangulation.py:287-303 `ccc` -/
def circumcentre (p1 p2 p3 : Pt ℝ) : Option (ℝ × ℝ) :=
  let m12 : Pt ℝ := ⟨1 / 2 * (p1.x + p2.x), 1 / 2 * (p1.y + p2.y)⟩
  let m13 : Pt ℝ := ⟨1 / 2 * (p1.x + p3.x), 1 / 2 * (p1.y + p3.y)⟩
  let o12 : Pt ℝ := ⟨m12.x + (p2.y - p1.y), m12.y - (p2.x - p1.x)⟩
  let o13 : Pt ℝ := ⟨m13.x + (p3.y - p1.y), m13.y - (p3.x - p1.x)⟩
  Geom.lineLine m12.x m12.y o12.x o12.y m13.x m13.y o13.x o13.y false false

/-! ### nearest point -/

/-- a point with elements which may be not-a-number; for `distanceSqr` (vector_utilities.py:1427-1438) -/
abbrev NP := Fin 3 → Option ℝ

/-- vector_utilities.py:1427-1438 `point_distance_sqr_to_points_projected`, for one of the points -/
def distanceSqr (p q : NP) (projection : String) : Res (Option ℝ) :=
  let sq : Fin 3 → Option ℝ := fun a =>
    match q a, p a with
    | some x, some y => some ((x - y) * (x - y))
    | _, _ => none
  let add : Option ℝ → Option ℝ → Option ℝ := fun x y =>
    match x, y with
    | some x, some y => some (x + y)
    | _, _ => none
  if projection = "xy" then .ok (add (sq 0) (sq 1))
  else if projection = "xz" then .ok (add (sq 0) (sq 2))
  else if projection = "yz" then .ok (add (sq 1) (sq 2))
  else .error .value

open Classical in
/-- `np.nanargmin` from some index on, with the best so far; for `nearestProjected` (vector_utilities.py:1441-1447) -/
def argMin : Nat → Option (Nat × ℝ) → List (Option ℝ) → Option (Nat × ℝ)
  | _, best, [] => best
  | n, best, none :: t => argMin (n + 1) best t
  | n, none, some v :: t => argMin (n + 1) (some (n, v)) t
  | n, some (m, w), some v :: t => if v < w then argMin (n + 1) (some (n, v)) t else argMin (n + 1) (some (m, w)) t

/-- the distances of all points; for `nearestProjected` (vector_utilities.py:1441-1447) -/
def distances (p : NP) (projection : String) : List NP → Res (List (Option ℝ))
  | [] => .ok []
  | q :: l =>
    match distanceSqr p q projection, distances p projection l with
    | .ok d, .ok r => .ok (d :: r)
    | .error e, _ => .error e
    | _, .error e => .error e

/-- vector_utilities.py:1441-1447 `nearest_point_projected`; the points are in flattened order and the index is into
that (the shape of the array is left out) -/
def nearestProjected (p : NP) (points : List NP) (projection : String) : Res Nat :=
  match distances p projection points with
  | .error e => .error e
  | .ok d =>
    match argMin 0 none d with
    | none => .error .value
    | some (n, _) => .ok n

/-! ### sorting -/

/-- the mean of points; for `clockwiseSorted` (vector_utilities.py:1478-1495) -/
def mean (p : List V3) : V3 := fun a => (p.map fun q => q a).sum / (p.length : ℝ)

open Classical in
/-- vector_utilities.py:1478-1495 `clockwise_sorted_indices`: tuples of azimuth and index are compared by azimuth, then
by index.  Indices are in range and not negative. -/
def clockwiseSorted (p : List V3) (b : List Nat) : Res (List Nat) :=
  if p.length < 3 then .error .assertion
  else if b.all fun i => decide (i < p.length) then
    let hull := b.map fun i => (azimuth (p.getD i 0 - mean p), i)
    .ok ((hull.mergeSort fun e e' => decide (e.1 < e'.1 ∨ (e.1 = e'.1 ∧ e.2 ≤ e'.2))).map (·.2))
  else .error .index

/-- the largest less the smallest; for `xySorted` (vector_utilities.py:1498-1518) -/
def range1 : List ℝ → ℝ
  | [] => 0
  | v :: l => l.foldl max v - l.foldl min v

open Classical in
/-- vector_utilities.py:1498-1518 `xy_sorted` and 1521-1532 `xy_sorted_njit`, without not-a-number; an array without
points raises ValueError when no axis is given (line 1514).  The order of points with equal values, which is not
specified for `argsort`, is kept here. -/
def xySorted (p : List V3) (axis : Option (Fin 2)) : Res (List V3 × Fin 2) :=
  if axis = none ∧ p = [] then .error .value
  else
    let axis : Fin 2 := match axis with
      | some a => a
      | none => if range1 (p.map (· 1)) > range1 (p.map (· 0)) then 1 else 0
    .ok (p.mergeSort fun q q' => decide (q axis.castSucc ≤ q' axis.castSucc), axis)

end

end Verif.Plane
