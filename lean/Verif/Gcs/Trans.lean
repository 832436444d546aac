import Verif.Gcs.Model
import Mathlib.Algebra.Order.Field.Basic

/-! # Model of `GridConnectionSet.tr_property_array` and of `write_simulator` -/

namespace Verif.Gcs

section
variable {K : Type} [Field K] [LinearOrder K]

/-- _grid_connection_set.py:1897-1922, one iteration of the loop, for a single grid: `half` is the array of half cell
transmissibilities (cell, axis, polarity), `fa` the fractional areas if given, `mult` the multiplier (1 if not applied).  Floats
are exact numbers.  Both sides take axis and polarity from `face_index_pairs[e, 0]`, as the code does. -/
def trValue (e : Ext) (half : Cell → Nat × Nat → K) (fa : Option (K × K)) (tolFa tolHalf mult : K) (c : Conn) : K :=
  let fm := faceIndexInverse c.face0
  let fp := faceIndexInverse c.face0
  let halfM := half (denatural e c.cell0) fm
  let halfP := half (denatural e c.cell1) fp
  if halfM < tolHalf ∨ halfP < tolHalf then 0
  else match fa with
    | none => mult / (1 / (halfM * 1) + 1 / (halfP * 1))
    | some (faM, faP) =>
      if faM < tolFa ∨ faP < tolFa then 0
      else mult / (1 / (halfM * faM) + 1 / (halfP * faP))

/-- _grid_connection_set.py:1852-1923 `tr_property_array`: `fa` and `mults` have one entry per connection if given -/
def trArray (e : Ext) (half : Cell → Nat × Nat → K) (fa : Nat → Option (K × K)) (tolFa tolHalf : K) (mult : Nat → K)
    (cs : List Conn) : List K :=
  cs.mapIdx fun n c => trValue e half (fa n) tolFa tolHalf (mult n) c

end

/-! ## write_simulator -/

/-- a row of `both` with its multiplier; for `sortRows` (_grid_connection_set.py:1562-1576) -/
structure FaceRow (K : Type) where
  axis : Nat
  pol : Nat
  k : Nat
  j : Nat
  i : Nat
  mult : K
  deriving DecidableEq

/-- order by axis, polarity, j, i, k; for `sortRows` (_grid_connection_set.py:1562-1576) -/
def FaceRow.le {K : Type} (a b : FaceRow K) : Bool :=
  a.axis < b.axis || (a.axis == b.axis && (a.pol < b.pol || (a.pol == b.pol && (a.j < b.j || (a.j == b.j &&
    (a.i < b.i || (a.i == b.i && a.k ≤ b.k)))))))

/-- _grid_connection_set.py:1562-1576: sorted by k, then stably by i, j, polarity and axis, which amounts to one stable sort by
(axis, polarity, j, i, k).  (The first numpy sort need not be stable: the order of identical faces is not determined by the
code.) -/
def sortRows {K : Type} (rows : List (FaceRow K)) : List (FaceRow K) := rows.insertionSort fun a b => a.le b = true

/-- arguments of `write_row`; for `runs` (_grid_connection_set.py:1582-1601) -/
structure OutRow (K : Type) where
  i : Nat
  j : Nat
  k1 : Nat
  k2 : Nat
  axis : Nat
  pol : Nat
  tmult : K
  deriving DecidableEq, Repr

/-- the variables i, j, k, k2, axis, polarity of the loop, once k is not None -/
structure Run where
  i : Nat
  j : Nat
  k : Nat
  k2 : Nat
  axis : Nat
  pol : Nat

/-- the row written for a run with the given multiplier; for `runs` (_grid_connection_set.py:1582-1601) -/
def Run.out {K : Type} (r : Run) (t : K) : OutRow K := ⟨r.i, r.j, r.k, r.k2, r.axis, r.pol, t⟩

/-- _grid_connection_set.py:1582-1601: the loop over sorted rows; `t` is the variable tmult -/
def runs {K : Type} : Option Run → List (FaceRow K) → K → List (OutRow K)
  | none, [], _ => []
  | some r, [], t => [r.out t]
  | none, f :: fs, _ => runs (some ⟨f.i, f.j, f.k, f.k, f.axis, f.pol⟩) fs f.mult
  | some r, f :: fs, _ =>
    if f.axis ≠ r.axis ∨ f.pol ≠ r.pol ∨ f.i ≠ r.i ∨ f.j ≠ r.j ∨ f.k ≠ r.k2 + 1 then
      r.out f.mult :: runs (some ⟨f.i, f.j, f.k, f.k, f.axis, f.pol⟩) fs f.mult
    else runs (some { r with k2 := f.k }) fs f.mult

/-- lines of the file: a MULT header, or a row with indices counted from one; for `writeRows` (_grid_connection_set.py:1517-1536) -/
inductive Line (K : Type) where
  | header (axis pol : Nat) (name : String)
  | row (i1 i2 j1 j2 k1 k2 : Nat) (tmult : K)

/-- _grid_connection_set.py:1517-1536 `write_nexus_header_lines` and `write_row`, with the active header as state -/
def writeRows {K : Type} (name : String) : Option (Nat × Nat × String) → List (OutRow K) →
    List (Line K) × Option (Nat × Nat × String)
  | head, [] => ([], head)
  | head, r :: rs =>
    let hl := if head = some (r.axis, r.pol, name) then [] else [Line.header r.axis r.pol name]
    let rest := writeRows name (some (r.axis, r.pol, name)) rs
    (hl ++ Line.row (r.i + 1) (r.i + 1) (r.j + 1) (r.j + 1) (r.k1 + 1) (r.k2 + 1) r.tmult :: rest.1, rest.2)

/-- the rows of `both` for one side of the connections of a feature; `both` has the multiplier of each connection; for `exportLines` (_grid_connection_set.py:1544-1601) -/
def sideRows {K : Type} (e : Ext) (side : Nat) (cs : List (Conn × K)) : List (FaceRow K) :=
  cs.map fun c =>
    let d := decode e c.1
    let s := if side = 0 then d.1 else d.2
    ⟨s.2.1, s.2.2, s.1.1, s.1.2.1, s.1.2.2, c.2⟩

/-- _grid_connection_set.py:1537-1542 -/
def exportSides (includeBoth useMinus : Bool) : List Nat := if includeBoth then [0, 1] else if useMinus then [1] else [0]

/-- _grid_connection_set.py:1544-1601: the lines for each feature, and each side, in turn; a feature is given by its (upper case,
first word) name and its connections with multipliers (of 1 if there is no property).  `t0` stands for tmult before it is set. -/
def exportLines {K : Type} (e : Ext) (sides : List Nat) (t0 : K) :
    List (String × List (Conn × K)) → Option (Nat × Nat × String) → List (Line K)
  | [], _ => []
  | (name, cs) :: fs, head =>
    let r := sides.foldl (fun st side =>
      let w := writeRows name st.2 (runs none (sortRows (sideRows e side cs)) t0)
      (st.1 ++ w.1, w.2)) (([] : List (Line K)), head)
    r.1 ++ exportLines e sides t0 fs r.2

end Verif.Gcs
