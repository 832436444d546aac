import Verif.Geom.Model
import Mathlib.Algebra.Order.Floor.Ring

/-! # Model of the search for mesh points in triangles

`resqpy/olio/vector_utilities.py`: `points_in_triangles_aligned_optimised` and `points_in_triangles_aligned_unified`, with what they call.
Floats are elements of a linearly ordered field in which numbers can be rounded down; nan is `none`.  The batches are independent, so
that they are worked out one after the other here. -/

namespace Verif.Geom
variable {K : Type} [Field K] [LinearOrder K] [FloorRing K]

/-- vector_utilities.py:985-1013 `vertical_intercept_nan` -/
def interceptNan (x x0 x1 y0 y1 : K) : Option K :=
  let (x0, x1, y0, y1) := if x1 < x0 then (x1, x0, y1, y0) else (x0, x1, y0, y1)
  if x0 ≤ x ∧ x ≤ x1 then
    if x0 = x1 then some y0
    else
      let m := (y1 - y0) / (x1 - x0)
      let c := y1 - m * x1
      some (m * x + c)
  else none

/-- vector_utilities.py:1017-1054 `vertical_intercept_nan_yz` -/
def interceptNanYZ (x x0 x1 y0 y1 z0 z1 : K) : Option (K × K) :=
  let (x0, x1, y0, y1, z0, z1) := if x1 < x0 then (x1, x0, y1, y0, z1, z0) else (x0, x1, y0, y1, z0, z1)
  if x0 ≤ x ∧ x ≤ x1 then
    if x0 = x1 then some (y0, z0)
    else
      let xr := x1 - x0
      let m := (y1 - y0) / xr
      let c := y1 - m * x1
      let y := m * x + c
      let m := (z1 - z0) / xr
      let c := z1 - m * x1
      some (y, m * x + c)
  else none

/-- `range(lo, hi)`; for `trianglePoints` (vector_utilities.py:1236-1249) -/
def intRange (lo hi : Int) : List Int := (List.range (hi - lo).toNat).map fun (n : Nat) => lo + (n : Int)

/-- smallest of some values, leaving out nan: `np.nanmin`; for `trianglePoints` (vector_utilities.py:1236-1249) -/
def nanMin : List (Option K) → Option K
  | [] => none
  | none :: l => nanMin l
  | some a :: l => match nanMin l with | none => some a | some b => some (min a b)

/-- for `trianglePoints` (vector_utilities.py:1236-1249) -/
def nanMax : List (Option K) → Option K
  | [] => none
  | none :: l => nanMax l
  | some a :: l => match nanMax l with | none => some a | some b => some (max a b)

/-- corners in the plane; for `trianglePoints` (vector_utilities.py:1236-1249) -/
structure Tri2 (K : Type) where
  a : K × K
  b : K × K
  c : K × K

/-- vector_utilities.py:1236-1249: the mesh points of one triangle, in units of the mesh.  `math.ceil` of nan would raise an error; that
not all of the three are nan is `some_intercept`. -/
def trianglePoints (nx ny : Nat) (t : Nat) (tri : Tri2 K) : List (Nat × Int × Int) :=
  let minX := min (min tri.a.1 tri.b.1) tri.c.1
  let maxX := max (max tri.a.1 tri.b.1) tri.c.1
  (intRange (max ⌈minX⌉ 0) (min (⌊maxX⌋ + 1) nx)).flatMap fun (xi : Int) =>
    let x : K := xi
    let es := [interceptNan x tri.b.1 tri.c.1 tri.b.2 tri.c.2, interceptNan x tri.a.1 tri.b.1 tri.a.2 tri.b.2,
               interceptNan x tri.a.1 tri.c.1 tri.a.2 tri.c.2]
    match nanMin es, nanMax es with
    | some f, some c => (intRange (max ⌈f⌉ 0) (min (⌊c⌋ + 1) ny)).map fun (y : Int) => (t, y, xi)
    | _, _ => []

/-- vector_utilities.py:1233-1256 `_points_in_triangles_aligned_optimised_batch` -/
def batchPoints (nx ny : Nat) (base : Nat) (tris : List (Tri2 K)) : List (Nat × Int × Int) :=
  (tris.zipIdx base).flatMap fun e => trianglePoints nx ny e.2 e.1

/-- vector_utilities.py:1166-1169: to units of the mesh -/
def normalised (dx dy : K) (p : K × K) : K × K := (p.1 / dx - 1 / 2, p.2 / dy - 1 / 2)

/-- for `pointsInTriangles` (vector_utilities.py:1143-1179) -/
def Tri2.normalised (dx dy : K) (t : Tri2 K) : Tri2 K := ⟨Geom.normalised dx dy t.a, Geom.normalised dx dy t.b, Geom.normalised dx dy t.c⟩

/-- vector_utilities.py:1163-1165, 1170-1179 (and 1212-1229): the triangles in batches, each done by `f`, which is given the number of its first
triangle, and collated -/
def inBatches {A B : Type} (f : Nat → List A → List B) (nBatches : Nat) (l : List A) : List B :=
  if l.length = 0 then []
  else
    let n := min l.length nBatches
    let size := (l.length - 1) / n + 1
    (List.range n).flatMap fun batch => f (batch * size) ((l.drop (batch * size)).take ((batch + 1) * size - batch * size))

/-- vector_utilities.py:1143-1179 `points_in_triangles_aligned_optimised` -/
def pointsInTriangles (nx ny : Nat) (dx dy : K) (tris : List (Tri2 K)) (nBatches : Nat) : List (Nat × Int × Int) :=
  inBatches (batchPoints nx ny) nBatches (tris.map (Tri2.normalised dx dy))

/-- vector_utilities.py:1100-1139 `points_in_triangles_aligned_optimised_serial` -/
def pointsInTrianglesSerial (nx ny : Nat) (dx dy : K) (tris : List (Tri2 K)) : List (Nat × Int × Int) :=
  batchPoints nx ny 0 (tris.map (Tri2.normalised dx dy))

/-! ## With a sampled value -/

/-- an element of a point; for `trianglePointsZ` (vector_utilities.py:1268-1330) -/
def P3.axis (p : P3 K) (n : Nat) : K := if n = 0 then p.x else if n = 1 then p.y else p.z

/-- lowest and highest so far, each with the value there; for `spanFirst` (vector_utilities.py:1282-1290) -/
abbrev Span (K : Type) := Option ((K × K) × (K × K))

/-- vector_utilities.py:1282-1290 -/
def spanFirst (e : Option (K × K)) : Span K := e.map fun e => (e, e)

/-- vector_utilities.py:1291-1303: note the plain `else` -/
def spanSecond (e : Option (K × K)) (s : Span K) : Span K :=
  match e with
  | none => s
  | some e => match s with
    | none => some (e, e)
    | some (f, c) => if e.1 < f.1 then some (e, c) else some (f, e)

/-- vector_utilities.py:1304-1316 -/
def spanThird (e : Option (K × K)) (s : Span K) : Span K :=
  match e with
  | none => s
  | some e => match s with
    | none => some (e, e)
    | some (f, c) => if e.1 < f.1 then some (e, c) else if c.1 < e.1 then some (f, e) else some (f, c)

/-- vector_utilities.py:1268-1330: the mesh points of one triangle with the values of the third axis there.  For lines which meet no edge
the code takes `math.ceil` of nan; see `trianglePoints`. -/
def trianglePointsZ (nx ny : Nat) (ax ay az : Nat) (t : Nat) (tri : Tri K) : List ((Nat × Int × Int) × K) :=
  let minX := min (min (tri.a.axis ax) (tri.b.axis ax)) (tri.c.axis ax)
  let maxX := max (max (tri.a.axis ax) (tri.b.axis ax)) (tri.c.axis ax)
  (intRange (max ⌈minX⌉ 0) (min (⌊maxX⌋ + 1) nx)).flatMap fun (xi : Int) =>
    let x : K := xi
    let e0 := interceptNanYZ x (tri.b.axis ax) (tri.c.axis ax) (tri.b.axis ay) (tri.c.axis ay) (tri.b.axis az) (tri.c.axis az)
    let e1 := interceptNanYZ x (tri.a.axis ax) (tri.b.axis ax) (tri.a.axis ay) (tri.b.axis ay) (tri.a.axis az) (tri.b.axis az)
    let e2 := interceptNanYZ x (tri.a.axis ax) (tri.c.axis ax) (tri.a.axis ay) (tri.c.axis ay) (tri.a.axis az) (tri.c.axis az)
    match spanThird e2 (spanSecond e1 (spanFirst e0)) with
    | none => []
    | some (f, c) =>
      let yRange := c.1 - f.1
      let zRange := c.2 - f.2
      (intRange (max ⌈f.1⌉ 0) (min (⌊c.1⌋ + 1) ny)).map fun (y : Int) =>
        let yf := (y : K) - f.1
        let yf := if 0 < yRange then yf / yRange else yf
        ((t, y, xi), f.2 + yf * zRange)

/-- vector_utilities.py:1260-1339 `_points_in_triangles_aligned_unified_batch`: the two lists as one list of pairs -/
def batchPointsZ (nx ny : Nat) (ax ay az : Nat) (base : Nat) (tris : List (Tri K)) : List ((Nat × Int × Int) × K) :=
  (tris.zipIdx base).flatMap fun e => trianglePointsZ nx ny ax ay az e.2 e.1

/-- vector_utilities.py:1183-1229 `points_in_triangles_aligned_unified` -/
def pointsInTrianglesZ (nx ny : Nat) (ax ay az : Nat) (tris : List (Tri K)) (nBatches : Nat) : List ((Nat × Int × Int) × K) :=
  inBatches (batchPointsZ nx ny ax ay az) nBatches tris

end Verif.Geom
