import Verif.Unstruct.Model
import Verif.TriEdges.Model

/-!
# Model: vertical prism grids made from surfaces

`/repo/resqpy/unstructured/_prism_grid.py` 153-347, 412-518.  The triangles of the columns are given with point indices which are natural
numbers; the intersection of vertical lines with the surfaces is a parameter (simplification), as is the coordinate reference system.
-/

namespace Verif.Unstruct.Prism
open Verif.Py Verif.Unstruct
open Verif.TriEdges (Tri Edge sorted edges)

/-- _prism_grid.py:198-211 frp: halving the range from `b` to before `c` -/
def frp (a : List Edge) (pair : Edge) (b c : Nat) : Res Nat :=
  match a[b + (c - b) / 2]? with
  | none => .error .assertion
  | some e =>
    if e = pair then .ok (b + (c - b) / 2)
    else if b < c then
      if e.1 < pair.1 then frp a pair (b + (c - b) / 2 + 1) c
      else if pair.1 < e.1 then frp a pair b (b + (c - b) / 2)
      else if e.2 < pair.2 then frp a pair (b + (c - b) / 2 + 1) c
      else frp a pair b (b + (c - b) / 2)
    else .error .assertion
termination_by c - b

/-- _prism_grid.py:195-213 find_pair -/
def findPair (a : List Edge) (pair : Edge) : Res Nat := frp a pair 0 a.length

/-- _prism_grid.py:309-312 the pairs of corners `t_nodes[t_edge - 1], t_nodes[t_edge]` for t_edge 0, 1 and 2 -/
def triEdges (t : Tri) : List Edge := [(t.2.2, t.1), (t.1, t.2.1), (t.2.1, t.2.2)]

/-- _prism_grid.py:312-315 the edges of one column, as indices in the array of edges -/
def columnSides (ce : List Edge) : List Edge → Res (List Nat)
  | [] => .ok []
  | e :: es => do
    let n ← findPair ce (sorted e)
    let ns ← columnSides ce es
    return n :: ns

/-- _prism_grid.py:309-316 the edges of all columns -/
def allSides (ce : List Edge) : List Tri → Res (List (List Nat))
  | [] => .ok []
  | t :: ts => do
    let s ← columnSides ce (triEdges t)
    let ss ← allSides ce ts
    return s :: ss

/-- _prism_grid.py:295-318 the faces of the cell in a layer and column with given sides: top, base and three sides; `c` is the number of
columns, `s` of surfaces, `e` of column edges -/
def cellRow (c s e layer col : Nat) (sides : List Nat) : List Nat :=
  [layer * c + col, (layer + 1) * c + col] ++ sides.map fun n => c * s + n + layer * e

/-- _prism_grid.py:295-318 the faces of all cells, layer by layer -/
def faceRows (c s e : Nat) (sides : List (List Nat)) : List (List Nat) :=
  (List.range (s - 1)).flatMap fun layer => (List.range c).map fun col => cellRow c s e layer col (sides.getD col [])

/-- _prism_grid.py:280-283, 284-290 the nodes of all faces: triangles surface by surface, then quadrilaterals layer by layer; `p` is the
number of points -/
def nodeRows (ts : List Tri) (ce : List Edge) (p s : Nat) : List (List Nat) :=
  ((List.range s).flatMap fun k => ts.map fun t => [t.1 + k * p, t.2.1 + k * p, t.2.2 + k * p]) ++
  (List.range (s - 1)).flatMap fun layer => ce.map fun d =>
    [d.1 + layer * p, d.2 + layer * p, d.2 + (layer + 1) * p, d.1 + (layer + 1) * p]

/-- _prism_grid.py:215-217, 233-347 the topology made by from_surfaces, for `s` surfaces and `p` points, with the assertions on the way;
219-231 (coordinate reference systems) are left out -/
def fromSurfaces (ts : List Tri) (p s : Nat) : Res Grid :=
  if s ≤ 1 then .error .assertion
  else if ts.length = 0 then .error .assertion
  else
    let ce := (edges ts).map (·.1)
    let c := ts.length
    let e := ce.length
    let nodes := (nodeRows ts ce p s).flatten
    if ¬ 0 < nodes.getLastD 0 then .error .assertion
    else do
      let sides ← allSides ce ts
      let faces := (faceRows c s e sides).flatten
      if faces.countP (· ≠ 0) ≠ faces.length - 1 then .error .assertion
      else if !(nodes.all fun n => n < p * s) then .error .assertion
      else return {
        cellCount := c * (s - 1)
        faceCount := c * s + e * (s - 1)
        facesPerCell := ⟨faces, (List.range (c * (s - 1))).map fun n => 5 * (1 + n)⟩
        nodesPerFace := ⟨nodes, ((List.range (c * s)).map fun n => 3 * (1 + n)) ++
          (List.range (e * (s - 1))).map fun n => 3 * (c * s) + 4 * (1 + n)⟩ }

/-- _prism_grid.py:328-342 the z value of a point on a surface; `hits` gives the z value of the intersection of the vertical line through a
point with a surface.  Where there is none the value of the surface above is inherited. -/
def zValue {K : Type} (hits : Nat → Nat → Option K) (p : Nat) : Nat → Option K
  | 0 => hits 0 p
  | s + 1 =>
    match hits (s + 1) p with
    | some z => some z
    | none => zValue hits p s

/-- _prism_grid.py:433-471 corner_points for one cell: the nodes of its top and of its base -/
def cornerNodes (g : Grid) (cell : Nat) : Res (List Nat × List Nat) := do
  let faces ← g.facesPerCell.row cell
  match faces with
  | top :: base :: _ =>
    let t ← g.nodesPerFace.row top
    let b ← g.nodesPerFace.row base
    return (t, b)
  | _ => .error .index

/-- _prism_grid.py:412-418 column_count -/
def columnCount (g : Grid) (nk : Nat) : Res Nat :=
  if nk ≤ 1 then .error .assertion else if g.cellCount % nk ≠ 0 then .error .assertion else .ok (g.cellCount / nk)

/-- _prism_grid.py:495-498, 513-518 the nodes of the top faces of given cells -/
def topNodes (g : Grid) : List Nat → Res (List (List Nat))
  | [] => .ok []
  | cell :: cells => do
    let n ← cornerNodes g cell
    let rest ← topNodes g cells
    return n.1 :: rest

/-- _prism_grid.py:500-518 triangulation -/
def triangulation (g : Grid) (nk : Nat) : Res (List (List Nat)) := do
  let n ← columnCount g nk
  topNodes g (List.range n)

end Verif.Unstruct.Prism
