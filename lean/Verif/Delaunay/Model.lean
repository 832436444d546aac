import Verif.Py.Basic
import Verif.Polygon.Model
import Mathlib.Data.Fin.VecNotation
import Mathlib.Logic.Function.Basic

/-! # Model of the simple Delaunay triangulation: `resqpy/olio/triangulation.py`

Floats are elements of a linearly ordered field: there is no rounding.  Arrays which are written by index are functions of the index, with what has
not been written yet being nought; that indices stay within the arrays is a theorem.  An entry of `e` with a triangle index of -1 is `none`. -/

namespace Verif.Delaunay
open Verif.Py
open Verif.Polygon (Pt)

variable {K : Type} [Field K] [LinearOrder K]

/-- vector_utilities.py:529-536 clockwise -/
def clockwise (a b c : Pt K) : K := (c.x - a.x) * (b.y - a.y) - (c.y - a.y) * (b.x - a.x)

/-- vector_utilities.py:563-570 in_triangle -/
def inTriangle (a b c d : Pt K) : Bool := decide (clockwise a b d < 0) && decide (clockwise b c d < 0) && decide (clockwise c a d < 0)

/-- vector_utilities.py:573-580 in_triangle_edged -/
def inTriangleEdged (a b c d : Pt K) : Bool := decide (clockwise a b d ≤ 0) && decide (clockwise b c d ≤ 0) && decide (clockwise c a d ≤ 0)

/-- vector_utilities.py:516-520 determinant -/
def determinant (a b c : K × K × K) : K :=
  a.1 * b.2.1 * c.2.2 + a.2.1 * b.2.2 * c.1 + a.2.2 * b.1 * c.2.1 - a.2.2 * b.2.1 * c.1 - a.2.1 * b.1 * c.2.2 - a.1 * b.2.2 * c.2.1

/-- a row of the matrix of `in_circumcircle` (vector_utilities.py:1373-1377) -/
def lifted (a d : Pt K) : K × K × K := (a.x - d.x, a.y - d.y, (a.x - d.x) * (a.x - d.x) + (a.y - d.y) * (a.y - d.y))

/-- the determinant of `in_circumcircle` (vector_utilities.py:1378) -/
def circumDet (a b c d : Pt K) : K := determinant (lifted a d) (lifted b d) (lifted c d)

/-- vector_utilities.py:1366-1378 in_circumcircle -/
def inCircumcircle (a b c d : Pt K) : Bool := decide (0 < circumDet a b c d)

/-- the arrays of `_dt_simple` (triangulation.py:137-153): the corners of triangles, the edges of triangles, the two places of each edge, the mask
of flipped edges, and the numbers of triangles and edges -/
structure St where
  t : Nat → Fin 3 → Nat
  te : Nat → Fin 3 → Nat
  e : Nat → Fin 2 → Option (Nat × Fin 3)
  fm : Nat → Bool
  nt : Nat
  ne : Nat

/-- triangulation.py:76-81, 82-87, 88-93, 94-99, 189-194, 195-200: the side of an edge which is that of the old triangle is given a new place -/
def reattach (e : Nat → Fin 2 → Option (Nat × Fin 3)) (ei old : Nat) (new : Nat × Fin 3) : Res (Nat → Fin 2 → Option (Nat × Fin 3)) :=
  if (e ei 0).map (·.1) = some old then .ok (Function.update e ei (Function.update (e ei) 0 (some new)))
  else if (e ei 1).map (·.1) = some old then .ok (Function.update e ei (Function.update (e ei) 1 (some new)))
  else .error .custom

/-- triangulation.py:53-112 flip; recursion is limited by a number which is shown to suffice (running out of it is
modelled as an error; that Python itself limits the depth of recursion is not modelled) -/
def flip (p : Nat → Pt K) : Nat → St → Nat → Res St
  | 0, _, _ => .error .index
  | fuel + 1, s, ei =>
    if s.fm ei then .ok s
    else
      match s.e ei 0, s.e ei 1 with
      | some (t0, te0), some (t1, te1) =>
        let t0n := te0 - 1
        let t1n := te1 - 1
        if !inCircumcircle (p (s.t t0 0)) (p (s.t t0 1)) (p (s.t t0 2)) (p (s.t t1 t1n)) &&
            !inCircumcircle (p (s.t t1 0)) (p (s.t t1 1)) (p (s.t t1 2)) (p (s.t t0 t0n)) then .ok s
        else do
          let ft0 : Fin 3 → Nat := ![s.t t0 te0, s.t t1 t1n, s.t t0 t0n]
          let ft1 : Fin 3 → Nat := ![s.t t1 te1, s.t t0 t0n, s.t t1 t1n]
          let e := Function.update s.e ei ![some (t0, 1), some (t1, 1)]
          let fte0 : Fin 3 → Nat := ![s.te t1 (3 - (te1 + t1n)), ei, s.te t0 t0n]
          let fte1 : Fin 3 → Nat := ![s.te t0 (3 - (te0 + t0n)), ei, s.te t1 t1n]
          let e ← reattach e (fte0 0) t1 (t0, 0)
          let e ← reattach e (fte1 0) t0 (t1, 0)
          let e ← reattach e (fte0 2) t0 (t0, 2)
          let e ← reattach e (fte1 2) t1 (t1, 2)
          let s : St := {
            t := Function.update (Function.update s.t t0 ft0) t1 ft1, te := Function.update (Function.update s.te t0 fte0) t1 fte1,
            e := e, fm := Function.update s.fm ei true, nt := s.nt, ne := s.ne }
          let s ← flip p fuel s (fte0 0)
          let s ← flip p fuel s (fte0 2)
          let s ← flip p fuel s (fte1 0)
          flip p fuel s (fte1 2)
      | _, _ => .ok s

/-- triangulation.py:175-210: the triangle `f` is split into three -/
def split (s : St) (f q : Nat) : Res St := do
  let e1 := s.te f 1
  let e2 := s.te f 2
  let t := Function.update s.t s.nt ![s.t f 1, s.t f 2, q]
  let t := Function.update t (s.nt + 1) ![t f 2, t f 0, q]
  let t := Function.update t f (Function.update (t f) 2 q)
  let e := Function.update s.e s.ne ![some (f, 2), some (s.nt + 1, 1)]
  let e := Function.update e (s.ne + 1) ![some (f, 1), some (s.nt, 2)]
  let e := Function.update e (s.ne + 2) ![some (s.nt, 1), some (s.nt + 1, 2)]
  let e ← reattach e e1 f (s.nt, 0)
  let e ← reattach e e2 f (s.nt + 1, 0)
  let te := Function.update s.te s.nt ![e1, s.ne + 2, s.ne + 1]
  let te := Function.update te (s.nt + 1) ![e2, s.ne, s.ne + 2]
  let te := Function.update te f (Function.update (Function.update (te f) 1 (s.ne + 1)) 2 s.ne)
  .ok { t := t, te := te, e := e, fm := fun _ => false, nt := s.nt + 2, ne := s.ne + 3 }

/-- triangulation.py:167-173: the first triangle which contains the point -/
def findTriangle (p : Nat → Pt K) (s : St) (q : Nat) : Option Nat :=
  (List.range s.nt).find? fun ti => inTriangleEdged (p (s.t ti 0)) (p (s.t ti 1)) (p (s.t ti 2)) (p q)

/-- triangulation.py:167-218: the steps of the loop for one point -/
def insertPoint (p : Nat → Pt K) (fuel : Nat) (s : St) (q : Nat) : Res St :=
  match findTriangle p s q with
  | none => .error .assertion
  | some f => do
    let s1 ← split s f q
    let s2 ← flip p fuel s1 (s.te f 0)
    let s3 ← flip p fuel s2 (s.te f 1)
    flip p fuel s3 (s.te f 2)

/-- triangulation.py:161-220: the loop, for points with the given indices -/
def insertAll (p : Nat → Pt K) (fuel : Nat) : St → List Nat → Res St
  | s, [] => .ok s
  | s, q :: l => do
    let s ← insertPoint p fuel s q
    insertAll p fuel s l

/-- `np.min` or `np.max` of a column (triangulation.py:123-124) -/
def extreme (f : K → K → K) (c : Pt K → K) : List (Pt K) → K
  | [] => 0
  | a :: l => l.foldl (fun m q => f m (c q)) (c a)

/-- triangulation.py:130: the factor used -/
def factor (csf : Option K) : K := match csf with | none => 100 | some c => max 1 c

/-- triangulation.py:123-133: the points with the three corners of the container added; `csf` is `container_size_factor` -/
def withContainer (po : List (Pt K)) (csf : Option K) : Nat → Pt K :=
  let minX := extreme min Pt.x po
  let minY := extreme min Pt.y po
  let maxX := extreme max Pt.x po
  let maxY := extreme max Pt.y po
  let dx := maxX - minX
  let dy := maxY - minY
  let csf := factor csf
  fun i =>
    if i < po.length then po[i]?.getD ⟨0, 0⟩
    else if i = po.length then ⟨minX - 8 / 10 * csf * dx, minY - 1 / 10 * csf * dy⟩
    else if i = po.length + 1 then ⟨maxX + 8 / 10 * csf * dx, minY - 1 / 10 * csf * dy⟩
    else ⟨minX + 5 / 10 * csf * dx, maxY + 8 / 10 * csf * dy⟩

/-- triangulation.py:137-153: the initial arrays, of one containing triangle -/
def initial (n : Nat) : St where
  t := fun k => if k = 0 then ![n, n + 1, n + 2] else fun _ => 0
  te := fun k => if k = 0 then ![0, 1, 2] else fun _ => 0
  e := fun i => if i = 0 then ![some (0, 0), none] else if i = 1 then ![some (0, 1), none] else if i = 2 then ![some (0, 2), none]
    else fun _ => none
  fm := fun _ => false
  nt := 1
  ne := 3

/-- triangulation.py:50-233 _dt_simple: the triangles and the indices of points on the boundary, `none` if there are fewer than three points
(simplification: plotting and reporting of progress are left out) -/
def dtSimple (po : List (Pt K)) (csf : Option K) : Res (Option (List (Fin 3 → Nat) × List Nat)) :=
  let n := po.length
  if n < 3 then .ok none
  else if n = 3 then .ok (some ([![0, 1, 2]], [0, 1, 2]))
  else if ¬ (0 < extreme max Pt.x po - extreme min Pt.x po ∧ 0 < extreme max Pt.y po - extreme min Pt.y po) then .error .assertion
  else do
    let p := withContainer po csf
    let s ← insertAll p (3 * n + 7) (initial n) (List.range n)
    let rows := (List.range s.nt).map s.t
    let triSet := rows.filter fun r => decide (r 0 < n) && decide (r 1 < n) && decide (r 2 < n)
    let externalT := rows.filter fun r => decide (n ≤ r 0) || decide (n ≤ r 1) || decide (n ≤ r 2)
    let unique := (List.range (n + 3)).filter fun i => externalT.any fun r => decide (r 0 = i) || decide (r 1 = i) || decide (r 2 = i)
    .ok (some (triSet, unique.take (unique.length - 3)))

end Verif.Delaunay
