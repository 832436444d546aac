import Verif.Py.Basic
import Verif.Crs.Model
import Mathlib.Algebra.Order.Field.Basic
import Mathlib.Algebra.Order.Floor.Defs
import Mathlib.Algebra.BigOperators.Fin
import Mathlib.Algebra.Order.BigOperators.Group.Finset

/-!
# Regular grids (grid/_regular_grid.py)

Numbers are elements of an ordered field (real numbers where lengths are needed); arrays are functions of their indices, so indices out of
range are not modelled.  Rows of increments are in the order K, J, I, and their columns in the order x, y, z.
-/

namespace Verif.RegGrid
open Verif.Py

/-- a point or a vector: x, y, z (for `node`, `block_origin`: _regular_grid.py:145) -/
abbrev Vec (K : Type) := Fin 3 → K

/-- indices in the order k, j, i (for `cell_kji0`: _regular_grid.py:389) -/
abbrev Cell := Nat × Nat × Nat

/-- ends along k, j, i of a corner of a cell (_regular_grid.py:400-403) -/
abbrev Corner := Fin 2 × Fin 2 × Fin 2

/-- _regular_grid.py:115-152 the attributes which make up the geometry: numbers of cells, origin, increments for steps along K, J, I, and
whether the axes are those of the coordinate system -/
structure RegGrid (K : Type) where
  nk : Nat
  nj : Nat
  ni : Nat
  origin : Vec K
  d : Fin 3 → Vec K
  aligned : Bool

section Generic
variable {K : Type} [Field K] [LinearOrder K]

/-- the numbers by which increments are multiplied in _regular_grid.py:819 -/
def mask (a c : Fin 3) : Nat := ([[1, 1, 0], [1, 0, 1], [0, 1, 1]].getD a []).getD c 0

/-- _regular_grid.py:815-819 _set_is_aligned: no product differs from nought -/
def isAligned (d : Fin 3 → Vec K) : Bool := decide (∀ a c, d a c * (mask a c : K) = 0)

/-- _regular_grid.py:143-144 increments from the cell dimensions in x, y and z -/
def ofDxyz (dxyz : Vec K) (a c : Fin 3) : K :=
  if a = 0 then (if c = 2 then dxyz 2 else 0) else if a = 1 then (if c = 1 then dxyz 1 else 0) else (if c = 0 then dxyz 0 else 0)

/-- a regular mesh, as far as it is used here (surface/_mesh.py:114-115): origin, and increments for steps along I and J in that order -/
structure RegMesh (K : Type) where
  origin : Vec K
  dij : Fin 2 → Vec K

/-- _regular_grid.py:131-134 increments of a grid based on a mesh -/
def ofMesh (m : RegMesh K) (dzdk : K) (a : Fin 3) : Vec K := if a = 0 then fun _ => dzdk else if a = 1 then m.dij 1 else m.dij 0

/-- _regular_grid.py:111-152 a new grid, apart from its coordinate reference system -/
def create (nk nj ni : Nat) (dxyz : Option (Vec K)) (dkji : Option (Fin 3 → Vec K)) (mesh : Option (RegMesh K × K)) (origin : Vec K)
    (irregular : Bool) : Res (RegGrid K) :=
  match mesh, dxyz, dkji with
  | some (m, dz), none, none => .ok ⟨nk, nj, ni, m.origin, ofMesh m dz, !irregular && isAligned (ofMesh m dz)⟩
  | some _, _, _ => .error .assertion
  | none, some _, some _ => .error .assertion
  | none, none, some d => .ok ⟨nk, nj, ni, origin, d, !irregular && isAligned d⟩
  | none, some v, none => .ok ⟨nk, nj, ni, origin, ofDxyz v, !irregular && isAligned (ofDxyz v)⟩
  | none, none, none => .ok ⟨nk, nj, ni, origin, ofDxyz fun _ => 1, !irregular && isAligned (ofDxyz fun _ => (1 : K))⟩

/-! ### Points -/

/-- _regular_grid.py:302-303 the first line of points -/
def lineK (g : RegGrid K) : Nat → Vec K
  | 0 => 0
  | k + 1 => lineK g k + g.d 0

/-- _regular_grid.py:304-305 the first plane of points -/
def planeJ (g : RegGrid K) (k : Nat) : Nat → Vec K
  | 0 => lineK g k
  | j + 1 => planeJ g k j + g.d 1

/-- _regular_grid.py:306-307 all points -/
def spaceI (g : RegGrid K) (k j : Nat) : Nat → Vec K
  | 0 => planeJ g k j
  | i + 1 => spaceI g k j i + g.d 2

/-- _regular_grid.py:300-309 the array made by make_regular_points_cached -/
def pointsArray (g : RegGrid K) (applyOrigin : Bool) (p : Cell) : Vec K :=
  if applyOrigin then spaceI g p.1 p.2.1 p.2.2 + g.origin else spaceI g p.1 p.2.1 p.2.2

/-- _regular_grid.py:345-347 one point, without the array -/
def pointDirect (g : RegGrid K) (p : Cell) : Vec K := fun a =>
  g.origin a + ((p.1 : K) * g.d 0 a + (p.2.1 : K) * g.d 1 a + (p.2.2 : K) * g.d 2 a)

/-- the element of numpy's linspace with `endpoint = False` (for `acpStart`: _regular_grid.py:428-431) -/
def linspaceOpen (start stop : K) (num i : Nat) : K := start + (i : K) * ((stop - start) / (num : K))

/-- _regular_grid.py:428-431, 436-439, 444-447 first corners of cells, by linspace -/
def acpStart (g : RegGrid K) (c : Cell) : Vec K := fun a =>
  if a = 0 then linspaceOpen 0 (g.d 2 0 * (g.ni : K)) g.ni c.2.2
  else if a = 1 then linspaceOpen 0 (g.d 1 1 * (g.nj : K)) g.nj c.2.1
  else linspaceOpen 0 (g.d 0 2 * (g.nk : K)) g.nk c.1

/-- _regular_grid.py:461, 466, 471 first corner of one cell -/
def cpStart (g : RegGrid K) (c : Cell) : Vec K := fun a =>
  if a = 0 then g.d 2 0 * (c.2.2 : K) else if a = 1 then g.d 1 1 * (c.2.1 : K) else g.d 0 2 * (c.1 : K)

/-- _regular_grid.py:432-434, 440-442, 448-452 and 462-464, 468-469, 472-476: the other corners from the first.  Each coordinate is written at
one end of one axis by an addition, and copied along the two others. -/
def cornersFrom (g : RegGrid K) (start : Vec K) (p : Corner) : Vec K := fun a =>
  (if a = 0 then (if p.2.2 = 0 then start 0 else start 0 + g.d 2 0)
   else if a = 1 then (if p.2.1 = 0 then start 1 else start 1 + g.d 1 1)
   else (if p.1 = 0 then start 2 else start 2 + g.d 0 2)) + g.origin a

/-- _points_functions.py:879-886, 797-809 corners of a cell from an array of points without splits or gaps -/
def cornersOfPoints (pts : Cell → Vec K) (c : Cell) (p : Corner) : Vec K := pts (c.1 + p.1.val, c.2.1 + p.2.1.val, c.2.2 + p.2.2.val)

/-! ### Centres -/

/-- _regular_grid.py:519-520 centres in steps of K, less the half cell -/
def centreK (g : RegGrid K) : Nat → Vec K
  | 0 => 0
  | k + 1 => centreK g k + g.d 0

/-- _regular_grid.py:521-522 -/
def centreJ (g : RegGrid K) (k : Nat) : Nat → Vec K
  | 0 => centreK g k
  | j + 1 => centreJ g k j + g.d 1

/-- _regular_grid.py:523-524 -/
def centreI (g : RegGrid K) (k j : Nat) : Nat → Vec K
  | 0 => centreJ g k j
  | i + 1 => centreI g k j i + g.d 2

/-- _regular_grid.py:503-527 the array of centres -/
def centresArray (g : RegGrid K) (useOrigin : Bool) (c : Cell) : Vec K := fun a =>
  (if g.aligned then acpStart g c a else centreI g c.1 c.2.1 c.2.2 a) + 1 / 2 * (g.d 0 a + g.d 1 a + g.d 2 a) + (if useOrigin then g.origin a else 0)

/-- _regular_grid.py:537-541 one centre -/
def centreDirect (g : RegGrid K) (useOrigin : Bool) (c : Cell) : Vec K := fun a =>
  (g.d 0 a * ((c.1 : K) + 1 / 2) + g.d 1 a * ((c.2.1 : K) + 1 / 2) + g.d 2 a * ((c.2.2 : K) + 1 / 2)) + (if useOrigin then g.origin a else 0)

/-- _regular_grid.py:548-558 aligned_column_centres -/
def columnCentre (g : RegGrid K) (j i : Nat) : Res (Fin 2 → K) :=
  if g.aligned then .ok fun a =>
    (if a = 0 then linspaceOpen 0 (g.d 2 0 * (g.ni : K)) g.ni i else linspaceOpen 0 (g.d 1 1 * (g.nj : K)) g.nj j) +
      (g.origin (if a = 0 then 0 else 1) + 1 / 2 * (g.d 1 (if a = 0 then 0 else 1) + g.d 2 (if a = 0 then 0 else 1)))
  else .error .assertion

/-! ### Calls and what they leave behind -/

/-- the arrays kept with a grid: points_cached, array_corner_points, array_centre_point (_regular_grid.py:298, 415, 501) -/
structure Cache (K : Type) where
  points : Option (Cell → Vec K)
  corners : Option (Cell → Corner → Vec K)
  centres : Option (Cell → Vec K)

/-- a call of a method of the grid (_regular_grid.py:318, 389, 479) -/
inductive Call where
  | pointRaw (index : Option Cell) (cacheArray : Bool)
  | cornerPoints (cell : Option Cell) (cacheResqml cacheCp : Bool)
  | centrePoint (cell : Option Cell) (cacheCentre useOrigin : Bool)

/-- what a call returns (_regular_grid.py:318, 389, 479) -/
inductive Out (K : Type) where
  | nothing
  | failed
  | point (v : Vec K)
  | corners (f : Corner → Vec K)
  | points (f : Cell → Vec K)
  | allCorners (f : Cell → Corner → Vec K)

/-- _regular_grid.py:298-309 make_regular_points_cached: nothing is done if there is an array already -/
def makePoints (g : RegGrid K) (applyOrigin : Bool) (s : Cache K) : Cache K :=
  match s.points with
  | some _ => s
  | none => { s with points := some (pointsArray g applyOrigin) }

/-- the array of points as it is after makePoints (_regular_grid.py:343) -/
def pointsOf (g : RegGrid K) (s : Cache K) : Cell → Vec K := s.points.getD (pointsArray g true)

/-- _regular_grid.py:318-347 point_raw -/
def pointRaw (g : RegGrid K) (index : Option Cell) (cacheArray : Bool) (s : Cache K) : Out K × Cache K :=
  if cacheArray then
    match index with
    | none => (.nothing, makePoints g true s)
    | some p => (.point (pointsOf g s p), makePoints g true s)
  else
    match index with
    | none => (.failed, s)
    | some p => (.point (pointDirect g p), s)

/-- _points_functions.py:812-895 with _regular_grid.py:419-423: corner points when the grid is not aligned.  Points of a single cell which are
not kept are fetched one by one with point_raw (_points_functions.py:797-809). -/
def cornerPointsGeneral (g : RegGrid K) (cell : Option Cell) (cacheResqml cacheCp : Bool) (s : Cache K) : Out K × Cache K :=
  let s := if cacheResqml then makePoints g true s else s
  match cell with
  | none => let s := makePoints g true s
            (.allCorners (cornersOfPoints (pointsOf g s)), { s with corners := some (cornersOfPoints (pointsOf g s)) })
  | some c =>
    if cacheCp then
      let s := makePoints g true s
      (.corners (cornersOfPoints (pointsOf g s) c), { s with corners := some (cornersOfPoints (pointsOf g s)) })
    else if cacheResqml then (.corners (cornersOfPoints (pointsOf g s) c), s)
    else (.corners (cornersOfPoints (pointDirect g) c), s)

/-- _regular_grid.py:389-477 corner_points -/
def cornerPoints (g : RegGrid K) (cell : Option Cell) (cacheResqml cacheCp : Bool) (s : Cache K) : Out K × Cache K :=
  match s.corners, cell with
  | some f, none => (.allCorners f, s)
  | some f, some c => (.corners (f c), s)
  | none, _ =>
    if !g.aligned then cornerPointsGeneral g cell cacheResqml cacheCp s
    else
      match cell with
      | none => (.allCorners fun c => cornersFrom g (acpStart g c), { s with corners := some fun c => cornersFrom g (acpStart g c) })
      | some c =>
        if cacheCp then (.corners (cornersFrom g (acpStart g c)), { s with corners := some fun c => cornersFrom g (acpStart g c) })
        else (.corners (cornersFrom g (cpStart g c)), s)

/-- _regular_grid.py:479-546 centre_point -/
def centrePoint (g : RegGrid K) (cell : Option Cell) (cacheCentre useOrigin : Bool) (s : Cache K) : Out K × Cache K :=
  let cacheCentre := cacheCentre || cell.isNone
  if cacheCentre && (s.centres.isNone || !useOrigin) then
    let s := if useOrigin then { s with centres := some (centresArray g true) } else s
    match cell with
    | none => (.points (centresArray g useOrigin), s)
    | some c => (.point (centresArray g useOrigin c), s)
  else
    match cell, s.centres with
    | none, some f => (.points f, s)
    | none, none => (.nothing, s)
    | some c, some f => if useOrigin then (.point (f c), s) else (.point (centreDirect g useOrigin c), s)
    | some c, none => (.point (centreDirect g useOrigin c), s)

/-- one call (_regular_grid.py:318, 389, 479) -/
def call (g : RegGrid K) (s : Cache K) : Call → Out K × Cache K
  | .pointRaw i c => pointRaw g i c s
  | .cornerPoints cell r c => cornerPoints g cell r c s
  | .centrePoint cell c o => centrePoint g cell c o s

/-- calls one after another: what each returns (_regular_grid.py:318, 389, 479) -/
def calls (g : RegGrid K) : Cache K → List Call → List (Out K)
  | _, [] => []
  | s, c :: rest => (call g s c).1 :: calls g (call g s c).2 rest

/-! ### Box, search, slices -/

/-- _regular_grid.py:665-672 the eight outer corners of the grid, without its origin -/
def outerCorners (g : RegGrid K) : List (Vec K) :=
  [0, 1].flatMap fun (k : Nat) => [0, 1].flatMap fun (j : Nat) => [0, 1].map fun (i : Nat) => fun a =>
    (((k * g.nk : Nat) : K) * g.d 0 a + ((j * g.nj : Nat) : K) * g.d 1 a) + ((i * g.ni : Nat) : K) * g.d 2 a

/-- smallest and greatest of some numbers (numpy amin and amax: _regular_grid.py:661-662) -/
def least (l : List K) : K := match l with
  | [] => 0
  | a :: r => r.foldl min a

/-- see `least` (_regular_grid.py:661-662) -/
def greatest (l : List K) : K := match l with
  | [] => 0
  | a :: r => r.foldl max a

/-- _regular_grid.py:658-660 the far corner of an aligned grid, without its origin -/
def farCorner (g : RegGrid K) : Vec K := fun a =>
  (if a = 0 then (g.ni : K) else if a = 1 then (g.nj : K) else (g.nk : K)) * g.d (2 - a) a

/-- _regular_grid.py:655-677 xyz_box in local coordinates -/
def xyzBox (g : RegGrid K) : Vec K × Vec K :=
  if g.aligned then (fun a => least [0, farCorner g a], fun a => greatest [0, farCorner g a])
  else (fun a => least ((outerCorners g).map (· a)), fun a => greatest ((outerCorners g).map (· a)))

/-- _regular_grid.py:685-706 find_cell_for_point_xy, in local coordinates -/
def findCell [FloorRing K] (g : RegGrid K) (x y : K) : Res (Option (Int × Int)) :=
  if g.aligned then
    if g.d 2 0 = 0 ∨ g.d 1 1 = 0 then .error .zeroDiv
    else
      let i0 := ⌊x / g.d 2 0⌋
      let j0 := ⌊y / g.d 1 1⌋
      if 0 ≤ i0 ∧ i0 < (g.ni : Int) ∧ 0 ≤ j0 ∧ j0 < (g.nj : Int) then .ok (some (j0, i0)) else .ok none
  else .error .notImpl

/-- _regular_grid.py:840 the axes other than the one of slicing -/
def otherAxes (axis : Fin 3) : Fin 3 × Fin 3 := if axis = 0 then (1, 2) else if axis = 1 then (0, 2) else (0, 1)

/-- _regular_grid.py:844-850 slice_points in local coordinates -/
def slicePoint (g : RegGrid K) (axis : Fin 3) (ref a b : Nat) : Vec K := fun c =>
  let p00 := if ref = 0 then 0 else (ref : K) * g.d axis c
  let pa0 := if a = 0 then p00 else p00 + (a : K) * g.d (otherAxes axis).1 c
  if b = 0 then pa0 else pa0 + (b : K) * g.d (otherAxes axis).2 c

/-! ### Storing and loading -/

/-- one Offset of the lattice in xml: direction, spacing and count (_regular_grid.py:859-875) -/
structure Offset (K : Type) where
  offset : Vec K
  spacing : K
  count : Nat

/-- the xml of the points of a regular grid (_regular_grid.py:884-895) -/
structure Lattice (K : Type) where
  orthogonal : Bool
  origin : Vec K
  offsets : List (Offset K)

/-- _regular_grid.py:859-875 make_axial_offset -/
def axialOffset (axis : Fin 3) (d : K) (n : Nat) : Offset K := ⟨fun a => if a = 2 - axis then d else 0, 1, n⟩

/-- _regular_grid.py:821-824 aligned_dxyz -/
def alignedDxyz (g : RegGrid K) : Vec K := fun a => if a = 0 then g.d 2 0 else if a = 1 then g.d 1 1 else g.d 0 2

/-- _regular_grid.py:879-895 the lattice written -/
def storeLattice (g : RegGrid K) : Res (Lattice K) :=
  if g.aligned then .ok ⟨true, fun _ => 0,
    [axialOffset 0 (alignedDxyz g 2) g.nk, axialOffset 1 (alignedDxyz g 1) g.nj, axialOffset 2 (alignedDxyz g 0) g.ni]⟩
  else .error .assertion

/-- _regular_grid.py:261-274 the tests of one offset; `isclose` to nought is equality, and spacing is tested without tolerance (a
simplification) -/
def offsetOk (axis : Fin 3) (n : Nat) (o : Offset K) : Bool :=
  decide ((∀ ax : Fin 3, (ax = axis ↔ o.offset (2 - ax) ≠ 0)) ∧ o.spacing = 1 ∧ o.count = n)

/-- _regular_grid.py:247-274 loading from a lattice; numbers of cells are loaded with the grid before -/
def loadLattice (nk nj ni : Nat) (x : Lattice K) : Res (RegGrid K) :=
  if !x.orthogonal then .error .assertion
  else if x.origin ≠ (fun _ => 0) then .error .assertion
  else
    match x.offsets with
    | [k, j, i] =>
      if offsetOk 0 nk k && offsetOk 1 nj j && offsetOk 2 ni i then
        .ok ⟨nk, nj, ni, x.origin, fun a => if a = 0 then k.offset else if a = 1 then j.offset else i.offset, true⟩
      else .error .assertion
    | _ => .error .assertion

/-- _regular_grid.py:219-246 loading from the three cell length properties, in the order K, J, I -/
def loadLengths (nk nj ni : Nat) (lengths : Fin 3 → K) : RegGrid K :=
  ⟨nk, nj, ni, fun _ => 0, fun a c => if c = 2 - a then lengths a else 0, true⟩

end Generic

/-! ### Lengths and volumes -/

/-- _regular_grid.py:311-314 axial_lengths_kji, vector_utilities.py:257-259 naive_lengths -/
noncomputable def axialLengths (g : RegGrid ℝ) (a : Fin 3) : ℝ := Real.sqrt (∑ c, g.d a c * g.d a c)

/-- _regular_grid.py:579-586 volume of each cell, in the cube of the unit of the crs or multiplied by a factor -/
noncomputable def volume (g : RegGrid ℝ) (factor : Option ℝ) : ℝ :=
  match factor with
  | none => ∏ a, axialLengths g a
  | some f => (∏ a, axialLengths g a) * f

/-- _regular_grid.py:600-603 thickness of each cell -/
noncomputable def thickness (g : RegGrid ℝ) : ℝ := axialLengths g 0

/-! ### The coordinate reference system -/

open Verif.Crs (Crs Pt)

/-- a vector as a point of a crs (crs.py:239-261) -/
def toPt (v : Vec ℝ) : Pt := (v 0, v 1, v 2)

/-- _regular_grid.py:169-171 a crs with its origin moved -/
noncomputable def shifted (c : Crs) (uuid : Nat) (o : Vec ℝ) : Crs :=
  { c with uuid := uuid, xOff := c.xOff + o 0, yOff := c.yOff + o 1, zOff := c.zOff + o 2 }

/-- _regular_grid.py:154-175 the crs of a new grid: `given` as argument, `extra` from the extra metadata, `model` that of the model, `blank` a
new one with no offsets.  Simplifications: a crs moved by nothing is made also where the code makes none, and a new crs is not exchanged
for an equivalent one that is there already. -/
noncomputable def gridCrs (given extra model : Option Crs) (blank : Crs) (uuid : Nat) (origin : Vec ℝ) (irregular : Bool) : Crs :=
  let shift := !irregular && (given.isSome || extra.isNone)
  match given.or (extra.or model) with
  | none => shifted blank uuid origin
  | some c => if shift then shifted c uuid origin else c

end Verif.RegGrid
