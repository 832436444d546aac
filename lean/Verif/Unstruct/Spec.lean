import Verif.Unstruct.Model

/-!
# Specification: what the topology of an unstructured grid means
-/

namespace Verif.Unstruct

/-- a packed array holds given rows: the elements are the rows one after the other, and the cumulative length of a row counts the elements
of all rows up to and including it -/
structure Packs (a : Jagged) (rows : List (List Nat)) : Prop where
  elements : a.elements = rows.flatten
  length : a.cl.length = rows.length
  cl : ∀ n, (h : n < a.cl.length) → a.cl[n] = (rows.take (n + 1)).flatten.length

/-- the cells using a face, in order of cell, once for each time the cell lists the face; cells left out do not count -/
def users (rows : List (List Nat)) (leftOut : Nat → Bool) (face : Nat) : List Nat :=
  ((List.range rows.length).filter fun c => !leftOut c).flatMap fun c => List.replicate ((rows.getD c []).count face) c

/-- no cell is left out -/
def nobody : Nat → Bool := fun _ => false

/-- every face of every cell not left out exists and is used at most twice -/
def Valid (rows : List (List Nat)) (faceCount : Nat) (leftOut : Nat → Bool) : Prop :=
  (∀ c, c < rows.length → leftOut c = false → ∀ f ∈ rows.getD c [], f < faceCount) ∧
  ∀ f, f < faceCount → (users rows leftOut f).length ≤ 2

/-- the table of the cells on either side of each face: first user, second user -/
def IsTable (rows : List (List Nat)) (faceCount : Nat) (leftOut : Nat → Bool) (t : Table) : Prop :=
  t = (List.range faceCount).map fun f => ((users rows leftOut f)[0]?, (users rows leftOut f)[1]?)

/-- two nodes follow one another round a face -/
def IsEdge (nodes : List Nat) (a b : Nat) : Prop :=
  ∃ i, nodes[i]? = some b ∧ nodes[(i + nodes.length - 1) % nodes.length]? = some a

end Verif.Unstruct
