import Verif.CpGrid.Model

/-! # Model of `interpolated_grid`

`resqpy/derived_model/_interpolated_grid.py`.  Numbers are exact.  The geometry of both grids is defined for every cell and their
coordinate reference systems are equivalent (lines 77-89 assert as much).  Titles, properties and storage are left out. -/

namespace Verif.Derived
open Verif.Py Verif.CpGrid

variable {K : Type} [Field K] [LinearOrder K]

/-- What is used of a grid.  `raw` are the raw K indices of layers, as in `k_raw_index_array`; `lines` are the points by raw K index
and pillar; for a grid without split pillars the pillars are numbered in natural order.  The kind (direction of K, handedness and pillar
shape) is only compared.; for `IGrid.planes` (_grid.py:62-69) -/
structure IGrid (K : Type) where
  nk : Nat
  kind : Bool × Bool × String
  kGaps : Option Nat
  raw : Nat → Nat
  tab : Pillars.Grid
  pts : Nat → Nat → Pt K
  inactive : Option (Nat → Nat → Nat → Bool)

/-- resqpy/grid/_grid.py:62-69 `nk_plus_k_gaps` -/
def IGrid.planes (g : IGrid K) : Nat := match g.kGaps with
  | none => g.nk + 1
  | some n => g.nk + n + 1

/-- `grid.k_gaps` taken as a truth value; for `cpOf` (_points_functions.py:827-886) -/
def IGrid.hasGaps (g : IGrid K) : Bool := match g.kGaps with
  | some (_ + 1) => true
  | _ => false

/-- resqpy/grid/_points_functions.py:827-886: the corner points, by cell and corner, given the mapping from columns to pillars -/
def cpOf (g : IGrid K) (m : Pillars.Mapping) : Cp K := fun k j i kp jp ip =>
  g.pts ((if g.hasGaps then g.raw k else k) + kp) (m j i jp ip)

/-- _interpolated_grid.py:176 and 190: a weighted by `1 - w` and b by `w` -/
def blend (w : K) (a b : Pt K) : Pt K := (a.1 * (1 - w) + b.1 * w, a.2.1 * (1 - w) + b.2.1 * w, a.2.2 * (1 - w) + b.2.2 * w)

/-- _interpolated_grid.py:131-144 `_determine_work_from_pillars` -/
def fromPillars (a b : IGrid K) : Bool :=
  if !a.tab.hasSplit && !b.tab.hasSplit then true
  else a.tab.hasSplit && b.tab.hasSplit && decide (a.planes = b.planes) && decide (a.tab.spi = b.tab.spi) &&
    decide (a.tab.cols = b.tab.cols) && decide (a.tab.cl = b.tab.cl)

/-- _interpolated_grid.py:166-169 -/
def bothInactive (a b : IGrid K) : Option (Nat → Nat → Nat → Bool) :=
  match a.inactive, b.inactive with
  | some f, some g => some fun k j i => f k j i && g k j i
  | _, _ => none

/-- _interpolated_grid.py:327-338 `_close_vertical_voids` -/
def closeAll (nk nj ni : Nat) (cp : Cp K) : Cp K :=
  if 1 < nk then if 0 < maxGap nk nj ni cp then closeVoids nk (fun _ => true) cp else cp else cp

/-- _interpolated_grid.py:194-198: the top of the first layer and the bases of all -/
def basePlanes (nk : Nat) (cp : Cp K) : List (Plane K) := topOf cp 0 :: (List.range nk).map (baseOf cp)

/-- _interpolated_grid.py:66-103 with 152-182, or 185-324, which is the text of `grid_from_cp` with all columns treated as active.
The K gap data of the new grid are those of a new object, `None`.  If the numbers of planes differ the arrays cannot be combined: at
least two planes are assumed. -/
def interpolated (a b : IGrid K) (w tol : K) : Res (IGrid K) :=
  if 0 ≤ w ∧ w ≤ 1 then
    if a.nk = b.nk ∧ a.tab.nj = b.tab.nj ∧ a.tab.ni = b.tab.ni then
      if a.kind = b.kind then
        if fromPillars a b then
          if a.planes = b.planes then
            .ok { nk := a.nk, kind := a.kind, kGaps := none, raw := fun k => k, tab := a.tab
                  pts := fun k p => blend w (a.pts k p) (b.pts k p), inactive := bothInactive a b }
          else .error .value
        else
          match Pillars.columnPillarMapping a.tab, Pillars.columnPillarMapping b.tab with
          | .ok ma, .ok mb =>
            let cp := closeAll a.nk a.tab.nj a.tab.ni fun k j i kp jp ip => blend w (cpOf a ma k j i kp jp ip) (cpOf b mb k j i kp jp ip)
            let tr := trace (basePlanes a.nk cp)
            let s := extraRefs a.tab.nj a.tab.ni tol tr (fun _ _ => true) true
            let lines := pointLines a.tab.nj a.tab.ni tr (fun _ _ => true) s
            match splitTables a.tab.nj a.tab.ni (!s.list.isEmpty) s with
            | .error e => .error e
            | .ok t => .ok { nk := a.nk, kind := (a.kind.1, a.kind.2.1, "curved"), kGaps := none, raw := fun k => k, tab := t
                             pts := fun k p => (lines.getD p []).getD k (0, 0, 0), inactive := bothInactive a b }
          | .error e, _ => .error e
          | _, .error e => .error e
      else .error .assertion
    else .error .assertion
  else .error .assertion

end Verif.Derived
