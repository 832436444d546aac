import Verif.Py.Basic

/-!
# Model: topology of unstructured grids

`/repo/resqpy/unstructured/_unstructured_grid.py`, `_pyramid_grid.py`.  Index arrays are lists of natural numbers (simplification: negative
indices, which numpy counts from the end, do not occur; `check_indices` refuses them).
-/

namespace Verif.Unstruct
open Verif.Py

/-- _unstructured_grid.py:191-211 an array of lists as RESQML packs it: the elements and the cumulative lengths -/
structure Jagged where
  elements : List Nat
  cl : List Nat
  deriving DecidableEq

/-- _unstructured_grid.py:449, 462, 487, 524, 545 where the elements of a row start -/
def Jagged.start (a : Jagged) (n : Nat) : Res Nat :=
  if n = 0 then .ok 0 else match a.cl[n - 1]? with
    | some v => .ok v
    | none => .error .index

/-- where the elements of a row end; for `row` (_unstructured_grid.py:471-488) -/
def Jagged.stop (a : Jagged) (n : Nat) : Res Nat :=
  match a.cl[n]? with
  | some v => .ok v
  | none => .error .index

/-- _unstructured_grid.py:471-488 node_indices_for_face, 509-525 face_indices_for_cell: the slice of the elements -/
def Jagged.row (a : Jagged) (n : Nat) : Res (List Nat) := do
  let s ← a.start n
  let e ← a.stop n
  return (a.elements.take e).drop s

/-- _unstructured_grid.py:445-450 face_count_for_cell, 458-463 node_count_for_face -/
def Jagged.count (a : Jagged) (n : Nat) : Res Int := do
  let s ← a.start n
  let e ← a.stop n
  return (e : Int) - s

/-- the differences of successive cumulative lengths; for `maxCount` (_unstructured_grid.py:452-469) -/
def diffs : List Nat → List Int
  | a :: b :: l => ((b : Int) - a) :: diffs (b :: l)
  | _ => []

/-- _unstructured_grid.py:452-456 max_face_count_for_any_cell, 465-469 max_node_count_for_any_face; `np.max` of nothing raises
ValueError -/
def Jagged.maxCount (a : Jagged) : Res Int :=
  match a.cl with
  | [] => .error .index
  | c :: cl =>
    match diffs (c :: cl) with
    | [] => .error .value
    | d :: ds => .ok (max (c : Int) (ds.foldl max d))

/-- _unstructured_grid.py:75-94 the parts of a grid used here -/
structure Grid where
  cellCount : Nat
  faceCount : Nat
  facesPerCell : Jagged
  nodesPerFace : Jagged

/-- _unstructured_grid.py:298 the array of two cells for each face; −1 is `none` -/
abbrev Table := List (Option Nat × Option Nat)

/-- _unstructured_grid.py:301-305 one face of one cell is entered -/
def enter (t : Table) (cell face : Nat) : Res Table :=
  match t[face]? with
  | none => .error .index
  | some (none, b) => .ok (t.set face (some cell, b))
  | some (some a, none) => .ok (t.set face (some a, some cell))
  | some (some _, some _) => .error .assertion

/-- _unstructured_grid.py:300-305 the faces of one cell are entered; the table as it is when an exception is raised too -/
def enterAll (cell : Nat) : List Nat → Table → Table × Option PyErr
  | [], t => (t, none)
  | f :: fs, t =>
    match enter t cell f with
    | .error e => (t, some e)
    | .ok t' => enterAll cell fs t'

/-- _unstructured_grid.py:299-305, 327-335 the loop over cells, those for which `skip` holds being left out -/
def scanCells (faces : Jagged) (skip : Nat → Bool) : List Nat → Table → Table × Option PyErr
  | [], t => (t, none)
  | c :: cs, t =>
    if skip c then scanCells faces skip cs t
    else
      match faces.row c with
      | .error e => (t, some e)
      | .ok fs =>
        match enterAll c fs t with
        | (t', some e) => (t', some e)
        | (t', none) => scanCells faces skip cs t'

/-- _unstructured_grid.py:298 nothing entered -/
def emptyTable (n : Nat) : Table := List.replicate n (none, none)

/-- _unstructured_grid.py:283-308 set_cells_per_face: the result and the cached array.  The array is cached before it is filled. -/
def setCellsPerFace (g : Grid) (check : Bool) (cache : Option Table) : Res Table × Option Table :=
  match cache with
  | some t => (.ok t, some t)
  | none =>
    match scanCells g.facesPerCell (fun _ => false) (List.range g.cellCount) (emptyTable g.faceCount) with
    | (t, some e) => (.error e, some t)
    | (t, none) => (if check && !(t.all fun r => r.1.isSome) then .error .assertion else .ok t, some t)

/-- _unstructured_grid.py:310-336 masked_cells_per_face -/
def maskedCellsPerFace (g : Grid) (exclude : Nat → Bool) : Res Table :=
  match scanCells g.facesPerCell exclude (List.range g.cellCount) (emptyTable g.faceCount) with
  | (_, some e) => .error e
  | (t, none) => .ok t

/-- `np.where(...)[0]`: the places where a condition holds; for `externalFaces` (_unstructured_grid.py:338-346) -/
def whereTable (t : Table) (p : Option Nat × Option Nat → Bool) : List Nat := (t.zipIdx.filter fun r => p r.1).map (·.2)

/-- _unstructured_grid.py:338-346 external_face_indices -/
def externalFaces (g : Grid) (cache : Option Table) : Res (List Nat) × Option Table :=
  match setCellsPerFace g true cache with
  | (.error e, c) => (.error e, c)
  | (.ok t, c) => (.ok (whereTable t fun r => r.2.isNone), c)

/-- _unstructured_grid.py:348-360 external_face_indices_for_masked_cells -/
def externalFacesMasked (g : Grid) (exclude : Nat → Bool) : Res (List Nat) :=
  match maskedCellsPerFace g exclude with
  | .error e => .error e
  | .ok t => .ok (whereTable t fun r => r.1.isSome && r.2.isNone)

/-- _unstructured_grid.py:362-374 internal_face_indices_for_masked_cells -/
def internalFacesMasked (g : Grid) (exclude : Nat → Bool) : Res (List Nat) :=
  match maskedCellsPerFace g exclude with
  | .error e => .error e
  | .ok t => .ok (whereTable t fun r => r.1.isSome && r.2.isSome)

/-- inserting into a sorted list without repeats; for `unionNodes` (_unstructured_grid.py:490-507) -/
def insertNode (x : Nat) : List Nat → List Nat
  | [] => [x]
  | y :: l => if x < y then x :: y :: l else if x = y then y :: l else y :: insertNode x l

/-- `np.union1d`: the distinct elements of both, sorted; for `distinctNodes` (_unstructured_grid.py:490-507) -/
def unionNodes (a b : List Nat) : List Nat := (a ++ b).foldr insertNode []

/-- _unstructured_grid.py:490-507 distinct_node_indices_for_cell, for given lists of nodes of the faces -/
def distinctNodes : List (List Nat) → Res (List Nat)
  | [] => .error .index
  | f :: fs => .ok (fs.foldl unionNodes f)

/-- _unstructured_grid.py:549-564 edges_for_face, for given nodes: element −1 of a list is its last -/
def edgesForFace (nodes : List Nat) : List (Nat × Nat) :=
  match nodes.getLast? with
  | none => []
  | some z => (z :: nodes.dropLast).zip nodes

/-- _unstructured_grid.py:583-584, 603-604 the lower index first -/
def ordered (e : Nat × Nat) : Nat × Nat := if e.2 < e.1 then (e.2, e.1) else e

/-- _unstructured_grid.py:566-585 edges_for_face_with_node_indices_ordered_within_pairs -/
def orderedEdgesForFace (nodes : List Nat) : List (Nat × Nat) := (edgesForFace nodes).map ordered

/-- _unstructured_grid.py:603-606 an edge is appended unless it is in the list -/
def appendNew (l : List (Nat × Nat)) (e : Nat × Nat) : List (Nat × Nat) := if ordered e ∈ l then l else l ++ [ordered e]

/-- _unstructured_grid.py:587-607 distinct_edges_for_cell, for given lists of nodes of the faces -/
def distinctEdges (faces : List (List Nat)) : List (Nat × Nat) := (faces.flatMap edgesForFace).foldl appendNew []

/-- _pyramid_grid.py:96-108, 130-145 the loop putting the quadrilateral face first: each face comes with its number of nodes -/
def pyramidScan {α : Type} : List (α × Nat) → Option α → List α → Res (Option α × List α)
  | [], q, ts => .ok (q, ts)
  | (f, nc) :: l, q, ts =>
    if nc = 3 then if ts.length + 1 < 5 then pyramidScan l q (ts ++ [f]) else .error .assertion
    else if nc = 4 then match q with
      | none => pyramidScan l (some f) ts
      | some _ => .error .assertion
    else .error .assertion

/-- _pyramid_grid.py:79-108 face_indices_for_cell, 110-145 face_indices_and_handedness_for_cell: five faces, the quadrilateral first.
If there was no quadrilateral five triangles have been refused already; the last case is for the model to be total. -/
def pyramidFaces {α : Type} (faces : List (α × Nat)) : Res (List α) :=
  if faces.length ≠ 5 then .error .assertion
  else match pyramidScan faces none [] with
    | .error e => .error e
    | .ok (some q, ts) => .ok (q :: ts)
    | .ok (none, _) => .error .assertion

end Verif.Unstruct
