import Verif.Zones.Model
import Verif.Derived.Unsplit

/-! # Model of `zonal_grid` and `single_layer_grid`

`resqpy/derived_model/_zonal_grid.py`, for geometry which is defined for every cell (the branches at lines 308-328, for geometry which
is not, are left out), and for grids without K gaps.  Points are by interface and pillar; the pillar tables are copied (lines 329-333).
Titles, coordinate reference systems and storage are left out. -/

namespace Verif.Derived
open Verif.Py

variable {V : Type} [AddCommGroup V] [Module ℚ V]

/-- a grid of equal blocks: `block_origin` and `block_dxyz_dkji`; for `Block.node` (_regular_grid.py:300-309) -/
structure Block (V : Type) where
  origin : V
  dk : V
  dj : V
  di : V

/-- the node of a grid of equal blocks; resqpy/grid/_regular_grid.py:300-309 `make_regular_points_cached`; repeated addition is taken as a multiple -/
def Block.node (b : Block V) (k j i : Nat) : V := b.origin + (k : ℚ) • b.dk + (j : ℚ) • b.dj + (i : ℚ) • b.di

/-- what is used of the source grid: `inactive` by layer and column, and the block data if it is a regular grid; for `zonalGrid` (_zonal_grid.py:73-104) -/
structure ZSource (V : Type) where
  nk : Nat
  pts : Nat → Nat → V
  inactive : Option (Nat → Nat → Bool)
  block : Option (Block V)

/-- what is made: one layer for each zone.  `points` for an ordinary grid, `block` for a regular one.; for `zonalGrid` (_zonal_grid.py:73-104) -/
structure ZResult (V : Type) where
  nk : Nat
  inactive : Option (Nat → Nat → Bool)
  geometry : (Nat → Nat → V) ⊕ Block V

/-- _zonal_grid.py:336-345 `_set_or_check_k_min_max` -/
def kLimits (nk : Nat) (kMin kMax : Option Nat) : Res (Nat × Nat) :=
  match kMin, kMax with
  | none, none => .ok (0, nk - 1)
  | some a, none => if a < nk then .ok (a, nk - 1) else .error .assertion
  | none, some b => if b < nk then .ok (0, b) else .error .assertion
  | some a, some b => if a < nk then if b < nk ∧ a ≤ b then .ok (a, b) else .error .assertion else .error .assertion

/-- _zonal_grid.py:245-264 `_set_inactive_cell_mask`: layers `lo` to `hi` of one column; a numpy slice leaves out the layers which are
beyond the end -/
def maskOf (nk : Nat) (inactive : Nat → Nat → Bool) (laissezFaire : Bool) (lo hi col : Nat) : Bool :=
  let layers := (List.range' lo (hi + 1 - lo)).filter fun k => decide (k < nk)
  if laissezFaire then layers.all fun k => inactive k col else layers.any fun k => inactive k col

/-- _zonal_grid.py:298-307: the interface of the source grid used for interface `k` of the new grid -/
def zonalPlane (single : Bool) (lo hi : Nat) (ranges : List (Nat × Nat × Int)) (k : Nat) : Res Nat :=
  if single then if k = 0 then .ok lo else .ok (hi + 1)
  else if k = 0 then match ranges[0]? with
    | none => .error .index
    | some r => .ok r.1
  else match ranges[k - 1]? with
    | none => .error .index
    | some r => .ok r.2.1

/-- the interfaces used, checked against the array of points; for `zonalGrid` (_zonal_grid.py:73-104) -/
def zonalPlanes (nk : Nat) (single : Bool) (lo hi : Nat) (ranges : List (Nat × Nat × Int)) : List Nat → Res (List Nat)
  | [] => .ok []
  | k :: ks => match zonalPlane single lo hi ranges k with
    | .error e => .error e
    | .ok p => if p ≤ nk then match zonalPlanes nk single lo hi ranges ks with
        | .error e => .error e
        | .ok ps => .ok (p :: ps)
      else .error .index

/-- _zonal_grid.py:73-104 with 187-210, 245-264 and 298-307.  `zoneArray` is the array found for the zone title or uuid, if either is
given (by layer, as in `Verif.Zones`; use of the dominant zone is left out there), and `rangeList` the argument
`zone_layer_range_list`. -/
def zonalGrid (src : ZSource V) (zoneArray : Option (List Zones.Layer)) (rangeList : Option (List (Nat × Nat × Int)))
    (kMin kMax : Option Nat) (laissezFaire : Bool) : Res (ZResult V) :=
  let single := zoneArray.isNone && (match rangeList with
    | none => true
    | some l => l.length == 1)
  match kLimits src.nk kMin kMax with
  | .error e => .error e
  | .ok (lo, hi) =>
    let ranges : Res (List (Nat × Nat × Int)) :=
      if single then .ok [(lo, hi, 0)]
      else match rangeList with
        | some l => .ok l
        | none => match zoneArray with
          | some a => Zones.zoneLayerRanges a lo (some hi)
          | none => .error .attribute
    match ranges with
    | .error e => .error e
    | .ok ranges =>
      if 0 < ranges.length then
        let inactive := src.inactive.map fun f => fun (k col : Nat) => match ranges[k]? with
          | some r => maskOf src.nk f laissezFaire r.1 r.2.1 col
          | none => false
        match single, src.block with
        | true, some b => .ok ⟨1, inactive, .inr { b with dk := ((hi - lo + 1 : Nat) : ℚ) • b.dk }⟩
        | _, _ => match zonalPlanes src.nk single lo hi ranges (List.range (ranges.length + 1)) with
          | .error e => .error e
          | .ok planes => .ok ⟨ranges.length, inactive, .inl fun k p => src.pts (planes.getD k 0) p⟩
      else .error .assertion

end Verif.Derived
