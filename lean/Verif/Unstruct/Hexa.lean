import Verif.Unstruct.Model
import Verif.Volume.Model
import Verif.Crs.Axes

/-!
# Model: hexahedral grids made from block grids

`/repo/resqpy/unstructured/_hexa_grid.py`.  The strided assignments into `faces_per_cell` and the running index into `nodes_per_face` are
modelled as lists of rows put one after the other.
-/

namespace Verif.Unstruct.Hexa
open Verif.Py Verif.Unstruct

/-- grid/_grid.py:289-294 denaturalized_cell_index -/
def denaturalize (nj ni c : Nat) : Nat × Nat × Nat := (c / (nj * ni), c % (nj * ni) / ni, c % (nj * ni) % ni)

/-- _hexa_grid.py:125 -/
def kFaceCount (nk nj ni : Nat) : Nat := (nk + 1) * nj * ni

/-- _hexa_grid.py:126 -/
def jFaceCount (nk nj ni : Nat) : Nat := nk * (nj + 1) * ni

/-- _hexa_grid.py:127 -/
def iFaceCount (nk nj ni : Nat) : Nat := nk * nj * (ni + 1)

/-- _hexa_grid.py:129 -/
def faceCount (nk nj ni : Nat) : Nat := kFaceCount nk nj ni + jFaceCount nk nj ni + iFaceCount nk nj ni

/-- _hexa_grid.py:133-145 the faces of one cell: K−, K+, J−, J+, I−, I+ -/
def cellFaces (nk nj ni cell : Nat) : List Nat :=
  let (k, j, i) := denaturalize nj ni cell
  let jMinus := kFaceCount nk nj ni + nk * ni * j + ni * k + i
  let iMinus := kFaceCount nk nj ni + jFaceCount nk nj ni + nk * nj * i + nj * k + j
  [cell, nj * ni + cell, jMinus, jMinus + nk * ni, iMinus, iMinus + nk * nj]

/-- _hexa_grid.py:131-145 the faces of all cells -/
def faceRows (nk nj ni : Nat) : List (List Nat) := (List.range (nk * nj * ni)).map (cellFaces nk nj ni)

/-- _hexa_grid.py:154-163 -/
def kFaceNodes (nj ni k j i : Nat) : List Nat :=
  [(k * (nj + 1) + j) * (ni + 1) + i, (k * (nj + 1) + j + 1) * (ni + 1) + i,
   (k * (nj + 1) + j + 1) * (ni + 1) + i + 1, (k * (nj + 1) + j) * (ni + 1) + i + 1]

/-- _hexa_grid.py:164-174 -/
def jFaceNodes (nj ni k j i : Nat) : List Nat :=
  [(k * (nj + 1) + j) * (ni + 1) + i, (k * (nj + 1) + j) * (ni + 1) + i + 1,
   ((k + 1) * (nj + 1) + j) * (ni + 1) + i + 1, ((k + 1) * (nj + 1) + j) * (ni + 1) + i]

/-- _hexa_grid.py:175-185 -/
def iFaceNodes (nj ni k j i : Nat) : List Nat :=
  [(k * (nj + 1) + j) * (ni + 1) + i, ((k + 1) * (nj + 1) + j) * (ni + 1) + i,
   ((k + 1) * (nj + 1) + j + 1) * (ni + 1) + i, (k * (nj + 1) + j + 1) * (ni + 1) + i]

/-- _hexa_grid.py:153-186 the nodes of all faces, in the order of the loops -/
def nodeRows (nk nj ni : Nat) : List (List Nat) :=
  ((List.range (nk + 1)).flatMap fun k => (List.range nj).flatMap fun j => (List.range ni).map fun i => kFaceNodes nj ni k j i) ++
  ((List.range (nj + 1)).flatMap fun j => (List.range nk).flatMap fun k => (List.range ni).map fun i => jFaceNodes nj ni k j i) ++
  ((List.range (ni + 1)).flatMap fun i => (List.range nk).flatMap fun k => (List.range nj).map fun j => iFaceNodes nj ni k j i)

/-- _hexa_grid.py:106, 129-131, 151-152 the topology of the new grid -/
def grid (nk nj ni : Nat) : Grid where
  cellCount := nk * nj * ni
  faceCount := faceCount nk nj ni
  facesPerCell := ⟨(faceRows nk nj ni).flatten, (List.range (nk * nj * ni)).map fun c => 6 * (1 + c)⟩
  nodesPerFace := ⟨(nodeRows nk nj ni).flatten, (List.range (faceCount nk nj ni)).map fun f => 4 * (1 + f)⟩

/-- _hexa_grid.py:188-197 the handedness flags of one cell -/
def handedness (offHanded : Bool) : List Bool := [offHanded, !offHanded, offHanded, !offHanded, offHanded, !offHanded]

/-- grid/_grid.py:518-527 off_handed, for the axis order it asserts -/
def offHanded (ijkRightHanded zIncDown : Bool) : Bool := ijkRightHanded == zIncDown

/-- rows of a packed array, one after the other; for `distinctNodesForCell` (_unstructured_grid.py:503-507) -/
def rowsOf (a : Jagged) : List Nat → Res (List (List Nat))
  | [] => .ok []
  | n :: ns => do
    let r ← a.row n
    let rs ← rowsOf a ns
    return r :: rs

/-- _unstructured_grid.py:490-507 distinct_node_indices_for_cell -/
def distinctNodesForCell (g : Grid) (cell : Nat) : Res (List Nat) := do
  let faces ← g.facesPerCell.row cell
  let nodes ← rowsOf g.nodesPerFace faces
  distinctNodes nodes

section
variable {K : Type} [Field K]
open Verif.Volume

/-- the mean of points: `np.mean(..., axis = 0)`; for `cellCentre` (_unstructured_grid.py:755-769) -/
def mean (ps : List (Vec K)) : Vec K := smul (1 / ps.length) (ps.foldr (· + ·) 0)

/-- _unstructured_grid.py:609-628, 755-769 cell_centre_point: the mean of the means of the nodes of the faces -/
def cellCentre (points : Nat → Vec K) (faces : List (List Nat)) : Vec K := mean (faces.map fun f => mean (f.map points))

/-- _hexa_grid.py:284-293 the loop over faces; a face without four nodes is refused -/
def volumeScan (points : Nat → Vec K) (apex : Vec K) (rightHanded : Bool) : List (List Nat × Bool) → Res K
  | [] => .ok 0
  | ([a, b, c, d], h) :: l =>
    match volumeScan points apex rightHanded l with
    | .ok v => .ok (pyramidVolume apex (points a) (points b) (points c) (points d) (rightHanded == h) + v)
    | .error e => .error e
  | _ => .error .assertion

/-- _hexa_grid.py:265-293 volume, before adjustment of units, for a grid with the given flags; the points are a function of the node
index -/
def volume (g : Grid) (points : Nat → Vec K) (flags : List Bool) (rightHanded : Bool) (cell : Nat) : Res K := do
  let faces ← g.facesPerCell.row cell
  let nodes ← rowsOf g.nodesPerFace faces
  volumeScan points (cellCentre points nodes) rightHanded (nodes.zip flags)

end

end Verif.Unstruct.Hexa
