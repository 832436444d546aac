import Verif.Geom.Scan
import Verif.FindFaces.Bisector

/-! # Model of the search for faces which represent a surface

`resqpy/grid_surface/_find_faces.py`: `find_faces_to_represent_surface_regular_optimised`, as far as the faces and their properties before
they are passed to `from_faces_indices` (area Gcs, C49), for a surface and a grid with the same crs, and without agitation.  Floats are
elements of a linearly ordered field in which numbers can be rounded down. -/

namespace Verif.FindFaces
open Verif.Geom
variable {K : Type} [Field K] [LinearOrder K] [FloorRing K]

/-- the size of the cells, along x, y and z; for `Block.unit` (_find_faces.py:991-997) -/
structure Block (K : Type) where
  dx : K
  dy : K
  dz : K

/-- _find_faces.py:991-997: to units in which the centres of cells have whole numbers -/
def Block.unit (b : Block K) (p : P3 K) : P3 K := ⟨p.x / b.dx - 1 / 2, p.y / b.dy - 1 / 2, p.z / b.dz - 1 / 2⟩

/-- for `findFaces` (_find_faces.py:999-1140) -/
def Block.unitTri (b : Block K) (t : Tri K) : Tri K := ⟨b.unit t.a, b.unit t.b, b.unit t.c⟩

/-- faces of one axis with three properties; for `axisFaces` (_find_faces.py:1012-1036) -/
structure AxisFaces (K : Type) where
  faces : List (Cell 3)
  triangles : List Nat
  depths : List K
  offsets : List K
  deriving DecidableEq

/-- _find_faces.py:1012-1036 (and 1056-1072, 1108-1124): the cells before the faces.  `n` is the number of cells along the axis, `d` their size,
and `cell` puts together the indices found. -/
def axisFaces (n : Nat) (d : K) (cell : Nat → Nat → Nat → Cell 3) (hits : List ((Nat × Int × Int) × K)) : Option (AxisFaces K) :=
  let kept := hits.filter fun h => decide (0 ≤ ⌊h.2⌋) && decide (⌊h.2⌋ < (n : Int) - 1)
  if kept.isEmpty then none
  else some ⟨kept.map fun h => cell ⌊h.2⌋.toNat h.1.2.1.toNat h.1.2.2.toNat, kept.map fun h => h.1.1, kept.map fun h => (h.2 + 1 / 2) * d,
    kept.map fun h => (h.2 - (⌊h.2⌋ : K) - 1 / 2) * d⟩

/-- `np.repeat(a, n, axis = 0)` -/
def npRepeat {A : Type} (l : List A) (n : Nat) : List A := l.flatMap fun x => List.replicate n x

/-- _find_faces.py:1072-1080 (and 1124-1132): to all layers -/
def expand (nk : Nat) (f : AxisFaces K) : AxisFaces K :=
  ⟨(List.range nk).flatMap fun k => f.faces.map fun c => Function.update c 0 k, npRepeat f.triangles nk, npRepeat f.depths nk, npRepeat f.offsets nk⟩

/-- _find_faces.py:999-1140: faces for the three axes K, J and I -/
def findFaces (ext : Cell 3) (b : Block K) (isCurtain : Bool) (tris : List (Tri K)) (nBatches : Nat) : Fin 3 → Option (AxisFaces K) :=
  let p := tris.map b.unitTri
  let nk := if isCurtain then 1 else ext 0
  fun axis => match axis with
  | 0 =>
    if 1 < nk then axisFaces nk b.dz (fun f y x => ![f, y, x]) (pointsInTrianglesZ (ext 2) (ext 1) 0 1 2 p nBatches) else none
  | 1 =>
    if 1 < ext 1 then
      let r := axisFaces (ext 1) b.dy (fun f y x => ![y, f, x]) (pointsInTrianglesZ (ext 2) nk 0 2 1 p nBatches)
      if isCurtain = true ∧ 1 < ext 0 then r.map (expand (ext 0)) else r
    else none
  | 2 =>
    if 1 < ext 2 then
      let r := axisFaces (ext 2) b.dx (fun f y x => ![y, x, f]) (pointsInTrianglesZ (ext 1) nk 1 2 0 p nBatches)
      if isCurtain = true ∧ 1 < ext 0 then r.map (expand (ext 0)) else r
    else none

end Verif.FindFaces
