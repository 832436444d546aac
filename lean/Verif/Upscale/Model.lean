import Verif.Py.Basic
import Mathlib.Algebra.Order.Field.Basic
import Mathlib.Algebra.BigOperators.Group.List.Basic

/-! # Model of the upscaling of properties when a grid is coarsened

`resqpy/property/grid_property_collection.py`.  Values are exact numbers, with `none` for not-a-number.  Arrays are functions of the
cell indices.  Since some arrays are changed in place while other names, and the list of imported properties, refer to them, the arrays
concerned are kept in a heap and named by their position in it. -/

namespace Verif.Upscale
open Verif.Py

variable {K : Type} [Field K] [LinearOrder K]

/-- array of values by k, j, i; for `sample` (grid_property_collection.py:787-799) -/
abbrev Arr (K : Type) := Nat → Nat → Nat → Option K

/-- the number of fine layers, rows and columns in each coarse one.  Simplification of the FineCoarse object, whose
`fine_box_for_coarse` is the subject of C06. -/
structure Coarsening where
  rk : List Nat
  rj : List Nat
  ri : List Nat

/-- the fine indices in a coarse index along an axis (fine_coarse.py:102-107 `ratio`, 143-148 `fine_base_for_coarse_axial`) -/
def owned (r : List Nat) (c : Nat) : List Nat := List.range' (r.take c).sum (r.getD c 0)

/-- the fine cells in a coarse one (fine_coarse.py:158-168 `fine_box_for_coarse`) -/
def cells (cz : Coarsening) (k j i : Nat) : List (Nat × Nat × Nat) :=
  (owned cz.rk k).flatMap fun a => (owned cz.rj j).flatMap fun b => (owned cz.ri i).map fun c => (a, b, c)

/-- for `coarseSum` (grid_property_collection.py:802-824) -/
def get (a : Arr K) (c : Nat × Nat × Nat) : Option K := a c.1 c.2.1 c.2.2

/-- `np.nansum`; for `coarseSum` (grid_property_collection.py:802-824) -/
def nansum (l : List (Option K)) : K := (l.map fun x => x.getD 0).sum

/-- product of values; for `weightedMean` (grid_property_collection.py:827-850) -/
def mulV (x y : Option K) : Option K :=
  match x, y with
  | some a, some b => some (a * b)
  | _, _ => none

/-- for `upscale` (grid_property_collection.py:895-931) -/
def mulA (a b : Arr K) : Arr K := fun k j i => mulV (a k j i) (b k j i)

/-- grid_property_collection.py:787-799 `_coarsening_sample` -/
def sample (cz : Coarsening) (a : Arr K) : Arr K := fun k j i =>
  a (cz.rk.take k).sum (cz.rj.take j).sum (cz.ri.take i).sum

/-- grid_property_collection.py:802-824 `_coarsening_sum`, for no axis -/
def coarseSum (cz : Coarsening) (a : Arr K) : Arr K := fun k j i => some (nansum ((cells cz k j i).map (get a)))

/-- grid_property_collection.py:816-823, `_coarsening_sum` with an axis: the divisor is the number of fine cells across it -/
def coarseLength (cz : Coarsening) (axis : Nat) (a : Arr K) : Arr K := fun k j i =>
  let n := [cz.rk.getD k 0, cz.rj.getD j 0, cz.ri.getD i 0]
  some (nansum ((cells cz k j i).map (get a)) / ((n.getD ((axis + 1) % 3) 0 * n.getD ((axis + 2) % 3) 0 : Nat) : K))

/-- grid_property_collection.py:827-850 `_coarsening_weighted_mean` and `_coarsening_weighted_mean_singlecell`, with a coarse weight -/
def weightedMean (cz : Coarsening) (a fineWeight coarseWeight : Arr K) (zeroWeight : Option K) : Arr K := fun k j i =>
  match coarseWeight k j i with
  | none => zeroWeight
  | some w => if w = 0 then zeroWeight else some (nansum ((cells cz k j i).map fun c => mulV (get a c) (get fineWeight c)) / w)

/-- grid_property_collection.py:844-857, the same without a coarse weight -/
def weightedMeanOwn (cz : Coarsening) (a fineWeight : Arr K) (zeroWeight : Option K) : Arr K := fun k j i =>
  let w := nansum ((cells cz k j i).map (get fineWeight))
  if w = 0 then zeroWeight else some (nansum ((cells cz k j i).map fun c => mulV (get a c) (get fineWeight c)) / w)

/-- arrays in memory; for `St` (grid_property_collection.py:860-877) -/
abbrev Heap (K : Type) := List (Arr K)

/-- for `upscale` (grid_property_collection.py:895-931) -/
def blank : Arr K := fun _ _ _ => none

/-- for `upscale` (grid_property_collection.py:895-931) -/
def Heap.read (h : Heap K) (r : Nat) : Arr K := h.getD r blank

/-- what a property is; for `St` (grid_property_collection.py:860-877) -/
inductive Kind where
  | rockVolume | netToGross | porosity | saturation | permeability | length | continuous | discrete
deriving DecidableEq

/-- memory and the imported list: kind and array (grid_property_collection.py:860-877 `_add_to_imported`: the
array given is kept by reference, _collection_get_attributes.py:19-20) -/
structure St (K : Type) where
  heap : Heap K
  imported : List (Kind × Nat)

/-- a new array; for `rockVolume` (grid_property_collection.py:950-970) -/
def St.alloc (s : St K) (a : Arr K) : St K := ⟨s.heap ++ [a], s.imported⟩

/-- a new array, imported; for `rockVolume` (grid_property_collection.py:950-970) -/
def St.add (s : St K) (kind : Kind) (a : Arr K) : St K := ⟨s.heap ++ [a], s.imported ++ [(kind, s.heap.length)]⟩

/-- in place multiplication of an array; for `upscale` (grid_property_collection.py:895-931) -/
def St.mul (s : St K) (r : Nat) (b : Arr K) : St K := ⟨s.heap.set r (mulA (s.heap.read r) b), s.imported⟩

/-- a loop importing an array for each of some properties; for `upscale` (grid_property_collection.py:895-931) -/
def St.addEach {α : Type} (s : St K) (kind : α → Kind) (f : α → Arr K) : List α → St K
  | [] => s
  | p :: ps => (s.add (kind p) (f p)).addEach kind f ps

/-- The properties of the fine grid, after selection of the realization and of the box
(grid_property_collection.py:775-784 `_array_box`, 934-947 `_extend_imported_get_fine_collections`): values of each property of each kind; for
lengths with the axis; for other properties with whether they are continuous.  Not modelled: rock volume properties which exist
but are all passed over because of their realization, for which the code goes on with no weights. -/
structure Fine (K : Type) where
  rv : List (Arr K)
  ntg : List (Arr K)
  poro : List (Arr K)
  sat : List (Arr K)
  perm : List (Arr K)
  lengths : List (Nat × Arr K)
  others : List (Bool × Arr K)

/-- grid_property_collection.py:950-970 `_extend_imported_coarsen_rock_volume`: references to the fine and coarse arrays.  With no such
property the arrays are those of cell volumes held by the grids. -/
def rockVolume (cz : Coarsening) (fineVol coarseVol : Arr K) : List (Arr K) → St K → Option (Nat × Nat) → St K × Nat × Nat
  | [], s, none => (⟨s.heap ++ [fineVol, coarseVol], s.imported⟩, s.heap.length, s.heap.length + 1)
  | [], s, some r => (s, r)
  | p :: ps, s, _ =>
    rockVolume cz fineVol coarseVol ps ((s.alloc p).add .rockVolume (coarseSum cz p)) (some (s.heap.length, s.heap.length + 1))

/-- the last property and its upscaled array; for `upscale` (grid_property_collection.py:895-931) -/
def lastOf (f : Arr K → Arr K) (l : List (Arr K)) : Option (Arr K × Arr K) := l.getLast?.map fun a => (a, f a)

/-- grid_property_collection.py:895-931 `_extend_imported_with_coarsening`, with 973-1099.  Only the arrays that can be changed in
place, or are imported, are in the heap. -/
def upscale (cz : Coarsening) (fineVol coarseVol : Arr K) (p : Fine K) : St K :=
  let (s, fineRv, coarseRv) := rockVolume cz fineVol coarseVol p.rv ⟨[], []⟩ none
  -- 973-990 `_extend_imported_coarsen_ntg`
  let up (s : St K) (fw cw : Nat) (zero : Option K) (a : Arr K) : Arr K := weightedMean cz a (s.heap.read fw) (s.heap.read cw) zero
  let ntg := lastOf (up s fineRv coarseRv (some 0)) p.ntg
  let s1 := s.addEach (fun _ => .netToGross) (up s fineRv coarseRv (some 0)) p.ntg
  -- 993-1001 `_extend_imported_nrv_arrays`
  let (s2, fineNrv, coarseNrv) := match ntg with
    | none => (s1, fineRv, coarseRv)
    | some (a, b) => ((s1.alloc (mulA (s1.heap.read fineRv) a)).alloc (mulA (s1.heap.read coarseRv) b), s1.heap.length, s1.heap.length + 1)
  -- 1004-1018 `_extend_imported_coarsen_poro`
  let poro := lastOf (up s2 fineNrv coarseNrv (some 0)) p.poro
  let s3 := s2.addEach (fun _ => .porosity) (up s2 fineNrv coarseNrv (some 0)) p.poro
  -- 1021-1040 `_extend_imported_coarsen_sat`: the weights are the arrays of net rock volume, multiplied in place
  let s4 := match poro with
    | none => s3
    | some (a, b) => (s3.mul fineNrv a).mul coarseNrv b
  let s5 := s4.addEach (fun _ => .saturation) (up s4 fineNrv coarseNrv (some 0)) p.sat
  -- 1043-1056 `_extend_imported_coarsen_perm`
  let s6 := s5.addEach (fun _ => .permeability) (up s5 fineNrv coarseNrv (some 0)) p.perm
  -- 1059-1077 `_extend_imported_coarsen_lengths`
  let s7 := s6.addEach (fun _ => .length) (fun q => coarseLength cz q.1 q.2) p.lengths
  -- 1080-1099 `_extend_imported_coarsen_other`
  s7.addEach (fun q => if q.1 then .continuous else .discrete)
    (fun q => if q.1 then up s7 fineRv coarseRv none q.2 else sample cz q.2) p.others

/-- the imported properties, as they will be written -/
def written (s : St K) : List (Kind × Arr K) := s.imported.map fun q => (q.1, s.heap.read q.2)

end Verif.Upscale
