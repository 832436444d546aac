import Verif.Unstruct.Model
import Verif.Volume.Model

/-!
# Model: cells of unstructured grids divided into tetrahedra, and their volumes

`/repo/resqpy/unstructured/_tetra_grid.py` 96-126, 173-277, `_unstructured_grid.py` 609-628, 755-834, `_pyramid_grid.py` 147-182.
The triangles into which each face is divided (`face_triangulation`, _unstructured_grid.py:704-724) are a parameter, and units of measure are
left out (simplifications).
-/

namespace Verif.Unstruct.Tetra
open Verif.Py Verif.Unstruct
open Verif.Volume (Vec tetrahedronVolume pyramidVolume)

/-- a triangle: three node indices; for `triEdges` (_prism_grid.py:309-312) -/
abbrev Tri := Nat × Nat × Nat

/-- _tetra_grid.py:238, 250 `u_cell_nodes.index(u)` -/
def nodeIndex (nodes : List Nat) (u : Nat) : Res Nat := if u ∈ nodes then .ok (nodes.idxOf u) else .error .value

/-- _tetra_grid.py:234-239 an internal face for each edge -/
def edgeFaces (nodes : List Nat) : List (Nat × Nat) → Res (List Tri)
  | [] => .ok []
  | (a, b) :: es => do
    let i ← nodeIndex nodes a
    let j ← nodeIndex nodes b
    let fs ← edgeFaces nodes es
    return (i, j, nodes.length) :: fs

/-- _tetra_grid.py:177-181 _min_max -/
def minMax (a b : Nat) : Nat × Nat := if a < b then (a, b) else (b, a)

/-- _tetra_grid.py:254-260 an internal face is found or appended -/
def placeFace (faces : List Tri) (f : Tri) : List Tri × Nat :=
  if f ∈ faces then (faces, faces.idxOf f) else (faces ++ [f], faces.length)

/-- _tetra_grid.py:251-261 the faces of the tetrahedron on one triangle; `n` is the centre node -/
def addTriangle (n : Nat) (faces : List Tri) (a b c : Nat) : List Tri × List Nat :=
  let f0 := faces ++ [(a, b, c)]
  let r1 := placeFace f0 ((minMax a b).1, (minMax a b).2, n)
  let r2 := placeFace r1.1 ((minMax b c).1, (minMax b c).2, n)
  let r3 := placeFace r2.1 ((minMax c a).1, (minMax c a).2, n)
  (r3.1, [faces.length, r1.2, r2.2, r3.2])

/-- _tetra_grid.py:247-261 the loop over triangles: the faces and the cells, each cell being the indices of its faces -/
def addTriangles (nodes : List Nat) : List Tri → List Tri → Res (List Tri × List (List Nat))
  | [], faces => .ok (faces, [])
  | (a, b, c) :: ts, faces => do
    let i ← nodeIndex nodes a
    let j ← nodeIndex nodes b
    let k ← nodeIndex nodes c
    let r ← addTriangles nodes ts (addTriangle nodes.length faces i j k).1
    return (r.1, (addTriangle nodes.length faces i j k).2 :: r.2)

/-- _tetra_grid.py:188-277 the grid of tetrahedra: the points are the nodes of the cell, followed, except for a tetrahedral cell, by its centre -/
structure TetraGrid (K : Type) where
  points : List (Vec K)
  faces : List Tri
  cells : List (List Nat)

variable {K : Type} [Field K]

/-- _tetra_grid.py:173-277 from_unstructured_cell: `faces` are the nodes of the faces of the cell, `tris` the triangles of all its faces,
`centre` its centre point.  Without triangles check_tetra (64-71) raises IndexError. -/
def fromCell (points : Nat → Vec K) (faces : List (List Nat)) (tris : List Tri) (centre : Vec K) : Res (TetraGrid K) := do
  let nodes ← distinctNodes faces
  if nodes.length < 4 then .error .assertion
  else if faces.length < 4 then .error .assertion
  else if nodes.length = 4 then
    if faces.length ≠ 4 then .error .assertion
    else return ⟨nodes.map points, [(0, 1, 2), (0, 3, 1), (1, 3, 2), (2, 3, 0)], [[0, 1, 2, 3]]⟩
  else
    if (distinctEdges faces).length < 4 then .error .assertion
    else
      let fs ← edgeFaces nodes (distinctEdges faces)
      let r ← addTriangles nodes tris fs
      if r.2 = [] then .error .index
      else return ⟨nodes.map points ++ [centre], r.1, r.2⟩

/-- the nodes of the faces of a cell; for `tetraVolume` (_unstructured_grid.py:502-507) -/
def facesOf (faces : List Tri) : List Nat → Res (List (List Nat))
  | [] => .ok []
  | f :: fs =>
    match faces[f]? with
    | none => .error .index
    | some (a, b, c) => do
      let r ← facesOf faces fs
      return [a, b, c] :: r

/-- the points with given indices; for `tetraVolume` (_tetra_grid.py:111) -/
def pointsOf (points : List (Vec K)) : List Nat → Res (List (Vec K))
  | [] => .ok []
  | n :: ns =>
    match points[n]? with
    | none => .error .index
    | some p => do
      let r ← pointsOf points ns
      return p :: r

/-- _tetra_grid.py:96-114 volume, before adjustment of units -/
def tetraVolume [LinearOrder K] (g : TetraGrid K) (cell : List Nat) : Res K := do
  let fs ← facesOf g.faces cell
  let nodes ← distinctNodes fs
  let ps ← pointsOf g.points nodes
  match ps with
  | [a, b, c, d] => return tetrahedronVolume a b c d
  | _ => .error .assertion

/-- _tetra_grid.py:116-126 grid_volume, for given cells -/
def volumes [LinearOrder K] (g : TetraGrid K) : List (List Nat) → Res K
  | [] => .ok 0
  | c :: cs => do
    let v ← tetraVolume g c
    let r ← volumes g cs
    return v + r

/-- _unstructured_grid.py:817-834 volume of a cell of any shape, before adjustment of units -/
def cellVolume [LinearOrder K] (points : Nat → Vec K) (faces : List (List Nat)) (tris : List Tri) (centre : Vec K) : Res K := do
  let g ← fromCell points faces tris centre
  volumes g g.cells

/-- the mean of points; for `faceCentre`, `cellCentre` (_unstructured_grid.py:609-628, 755-769) -/
def mean (ps : List (Vec K)) : Vec K :=
  ⟨(ps.map (·.x)).sum / ps.length, (ps.map (·.y)).sum / ps.length, (ps.map (·.z)).sum / ps.length⟩

/-- _unstructured_grid.py:609-628, 755-769 cell_centre_point: the mean of the means of the nodes of the faces -/
def cellCentre (points : Nat → Vec K) (faces : List (List Nat)) : Vec K := mean (faces.map fun f => mean (f.map points))

/-- _pyramid_grid.py:165-171 the first node which is not a node of the base; `Exception` if there is none -/
def apexNode (base : List Nat) : List Nat → Res Nat
  | [] => .error .custom
  | n :: ns => if n ∈ base then apexNode base ns else .ok n

/-- _pyramid_grid.py:147-182 volume of a pyramid, before adjustment of units: `faces` are the nodes of the faces with the quadrilateral first,
`rh` whether the coordinate reference system is right handed and `hand` the handedness stored for the quadrilateral -/
def pyramidCellVolume (points : Nat → Vec K) (faces : List (List Nat)) (rh hand : Bool) : Res K := do
  let nodes ← distinctNodes faces
  match faces with
  | [a, b, c, d] :: _ => do
    let n ← apexNode [a, b, c, d] nodes
    return pyramidVolume (points n) (points a) (points b) (points c) (points d) (rh == hand)
  | _ => .error .index

end Verif.Unstruct.Tetra
