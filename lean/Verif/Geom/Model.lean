import Verif.Py.Basic
import Mathlib.Algebra.Order.Field.Basic

/-! # Model of `resqpy/olio/intersection.py`

Floats are elements of a linearly ordered field; rounding is not modelled.  Where the code has nan for no intersection the model has
`none`. -/

namespace Verif.Geom

/-- a point or vector: an array of three floats; for `linePlane` (intersection.py:14-35) -/
@[ext] structure P3 (K : Type) where
  x : K
  y : K
  z : K
deriving DecidableEq

/-- the corners of a triangle: an array of three points; for `linePlane` (intersection.py:14-35) -/
structure Tri (K : Type) where
  a : P3 K
  b : P3 K
  c : P3 K

section
variable {K : Type} [Field K] [LinearOrder K]

/-- for `linePlane` (intersection.py:14-35) -/
def P3.sub (p q : P3 K) : P3 K := ⟨p.x - q.x, p.y - q.y, p.z - q.z⟩

/-- `np.negative`; for `linePlane` (intersection.py:14-35) -/
def P3.neg (p : P3 K) : P3 K := ⟨-p.x, -p.y, -p.z⟩

/-- `p + t * v`; for `linePlane` (intersection.py:14-35) -/
def P3.along (p : P3 K) (t : K) (v : P3 K) : P3 K := ⟨p.x + t * v.x, p.y + t * v.y, p.z + t * v.z⟩

/-- `np.dot`; for `linePlane` (intersection.py:14-35) -/
def dot (p q : P3 K) : K := p.x * q.x + p.y * q.y + p.z * q.z

/-- `np.cross`; for `linePlane` (intersection.py:14-35) -/
def cross (p q : P3 K) : P3 K := ⟨p.y * q.z - p.z * q.y, p.z * q.x - p.x * q.z, p.x * q.y - p.y * q.x⟩

/-- intersection.py:14-35 `line_plane_intersect` -/
def linePlane (p v : P3 K) (tri : Tri K) : Option (P3 K) :=
  let p01 := tri.b.sub tri.a
  let p02 := tri.c.sub tri.a
  let norm := cross p01 p02
  let denom := dot v.neg norm
  if denom = 0 then none
  else
    let t := dot norm (p.sub tri.a) / denom
    some (p.along t v)

/-- intersection.py:38-76 `line_triangle_intersect`, and 80-125 `line_triangle_intersect_numba`, which has the same text -/
def lineTriangle (p v : P3 K) (tri : Tri K) (segment : Bool) (lTol tTol : K) : Option (P3 K) :=
  let p01 := tri.b.sub tri.a
  let p02 := tri.c.sub tri.a
  let norm := cross p01 p02
  let rv := v.neg
  let denom := dot rv norm
  if denom = 0 then none
  else
    let lp := p.sub tri.a
    let t := dot norm lp / denom
    if segment = true ∧ (t < 0 - lTol ∨ t > 1 + lTol) then none
    else
      let u := dot (cross p02 rv) lp / denom
      if u < 0 - tTol ∨ u > 1 + tTol then none
      else
        let w := dot (cross rv p01) lp / denom
        if w < 0 - tTol ∨ u + w > 1 + tTol then none
        else some (p.along t v)

/-- `np.divide(…, out = …, where = nz)` into an array filled with nan; for `oneOfMany` (intersection.py:146-172) -/
def nzDivide (n d : K) : Option K := if d ≠ 0 then some (n / d) else none

/-- `x < c` where x may be nan; for `oneOfMany` (intersection.py:146-172) -/
def nanLt (x : Option K) (c : K) : Bool := match x with | none => false | some x => decide (x < c)
/-- for `oneOfMany` (intersection.py:146-172) -/
def nanGt (x : Option K) (c : K) : Bool := match x with | none => false | some x => decide (x > c)
/-- sum of values which may be nan; for `oneOfMany` (intersection.py:146-172) -/
def nanAdd (x y : Option K) : Option K := match x, y with | some x, some y => some (x + y) | _, _ => none

/-- intersection.py:146-172, the calculation for one of the triangles of `line_triangles_intersects`; 200-235 is the same for each
line and triangle -/
def oneOfMany (p v : P3 K) (segment : Bool) (tri : Tri K) : Option (P3 K) :=
  let p01 := tri.b.sub tri.a
  let p02 := tri.c.sub tri.a
  let norm := cross p01 p02
  let rv := v.neg
  let denom := dot norm rv
  let lp := p.sub tri.a
  let t := nzDivide (dot norm lp) denom
  let t := if segment then (if nanLt t 0 || nanGt t 1 then none else t) else t
  let u := nzDivide (dot (cross p02 rv) lp) denom
  let w := nzDivide (dot (cross rv p01) lp) denom
  let t := if (nanLt u 0 || nanGt u 1) || (nanLt w 0 || nanGt (nanAdd u w) 1) then none else t
  t.map fun t => p.along t v

/-- intersection.py:128-172 `line_triangles_intersects` -/
def lineTriangles (p v : P3 K) (tris : List (Tri K)) (segment : Bool) : List (Option (P3 K)) := tris.map (oneOfMany p v segment)

/-- intersection.py:181-235 `line_set_triangles_intersects`, with a vector for each line: a row for each line -/
def lineSetTriangles (lines : List (P3 K × P3 K)) (tris : List (Tri K)) (segment : Bool) : List (List (Option (P3 K))) :=
  lines.map fun l => tris.map (oneOfMany l.1 l.2 segment)

/-- intersection.py:200-201: one vector for all lines -/
def commonVector (ps : List (P3 K)) (v : P3 K) : List (P3 K × P3 K) := ps.map fun p => (p, v)

/-- the segments of a line of points: `line_ps[:-1]` with `line_ps[1:] - line_ps[:-1]` -/
def segmentsOf (ps : List (P3 K)) : List (P3 K × P3 K) := List.zipWith (fun p q => (p, q.sub p)) ps ps.tail

/-- intersection.py:238-254 `poly_line_triangles_intersects` -/
def polyLineTriangles (ps : List (P3 K)) (tris : List (Tri K)) : List (List (Option (P3 K))) :=
  lineSetTriangles (segmentsOf ps) tris true

end

section
variable {K : Type}

/-- `np.where(np.logical_not(np.isnan(…)))` on a row: indices with the values there; for `intersectsIndices` (intersection.py:175-178) -/
def found (row : List (Option (P3 K))) : List (Nat × P3 K) := row.zipIdx.filterMap fun e => e.1.map fun q => (e.2, q)

/-- intersection.py:175-178 `intersects_indices` -/
def intersectsIndices (row : List (Option (P3 K))) : List Nat := (found row).map Prod.fst

/-- intersection.py:257-273 `distilled_intersects` -/
def distilled (rows : List (List (Option (P3 K)))) : List (Nat × Nat × P3 K) :=
  rows.zipIdx.flatMap fun r => (found r.1).map fun e => (r.2, e.1, e.2)

/-- an array of places: `pick[l] = q`; for `lastIntersects` (intersection.py:276-306) -/
def setAt (pick : List (Option (P3 K))) (e : Nat × Nat × P3 K) : List (Option (P3 K)) := pick.set e.1 (some e.2.2)

/-- intersection.py:276-306 `last_intersects`: the assignment with arrays of indices at 304 is done in order -/
def lastIntersects (rows : List (List (Option (P3 K)))) : List (Option (P3 K)) :=
  (distilled rows).foldl setAt (List.replicate rows.length none)

/-- intersection.py:309-329 `triangles_for_line` -/
def trianglesForLine (rows : List (List (Option (P3 K)))) (l : Nat) : Option (List (Nat × P3 K)) := rows[l]?.map found

/-- intersection.py:332-352 `lines_for_triangle` -/
def linesForTriangle (rows : List (List (Option (P3 K)))) (t : Nat) : List (Nat × P3 K) :=
  rows.zipIdx.filterMap fun r => (r.1.getD t none).map fun q => (r.2, q)

end

section
variable {K : Type} [Field K] [LinearOrder K]

/-- loop of `poly_line_triangles_first_intersect`, intersection.py:372-378, over the segments from number `c` on -/
def firstFrom (tris : List (Tri K)) : List (P3 K × P3 K) → Nat → Option (Nat × Option (P3 K))
  | [], _ => none
  | s :: ss, c =>
    let points := lineTriangles s.1 s.2 tris true
    if points.all (·.isNone) then firstFrom tris ss (c + 1)
    else some (c, (lastIntersects [points]).getD 0 none)

/-- intersection.py:355-378 `poly_line_triangles_first_intersect` -/
def firstIntersect (ps : List (P3 K)) (tris : List (Tri K)) (start : Nat) : Option (Nat × Option (P3 K)) :=
  firstFrom tris ((segmentsOf ps).drop start) start

/-! ## In the plane -/

/-- intersection.py:381-420 `line_line_intersect` -/
def lineLine (x1 y1 x2 y2 x3 y3 x4 y4 : K) (segment half : Bool) : Option (K × K) :=
  let divisor := (x1 - x2) * (y3 - y4) - (y1 - y2) * (x3 - x4)
  if divisor = 0 then none
  else if segment then
    let t := ((x1 - x3) * (y3 - y4) - (y1 - y3) * (x3 - x4)) / divisor
    if t < 0 ∨ (half = false ∧ t > 1) then none
    else
      let u := -((x1 - x2) * (y1 - y3) - (y1 - y2) * (x1 - x3)) / divisor
      if ¬ (0 ≤ u ∧ u ≤ 1) then none
      else some (x1 + t * (x2 - x1), y1 + t * (y2 - y1))
  else
    let a := x1 * y2 - y1 * x2
    let b := x3 * y4 - y3 * x4
    some ((a * (x3 - x4) - (x1 - x2) * b) / divisor, (a * (y3 - y4) - (y1 - y2) * b) / divisor)

/-- intersection.py:423-432 `point_projected_to_line_2d` -/
def projectedToLine (p l1 l2 : K × K) : Option (K × K) :=
  let v := (l2.1 - l1.1, l2.2 - l1.2)
  let n := (-v.2, v.1)
  let pn := (p.1 + n.1, p.2 + n.2)
  lineLine l1.1 l1.2 l2.1 l2.2 p.1 p.2 pn.1 pn.2 false false

/-- vector_utilities.py:1401-1404 `is_obtuse_2d` -/
def isObtuse (p p1 p2 : K × K) : Bool := decide ((p1.1 - p.1) * (p2.1 - p.1) + (p1.2 - p.2) * (p2.2 - p.2) < 0)

/-- intersection.py:435-443 `point_snapped_to_line_segment_2d` -/
def snappedToSegment (p l1 l2 : K × K) : Option (K × K) :=
  if isObtuse l1 p l2 then some l1
  else if isObtuse l2 p l1 then some l2
  else projectedToLine p l1 l2

end

end Verif.Geom
