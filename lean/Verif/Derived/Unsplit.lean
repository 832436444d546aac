import Verif.Pillars.Model
import Mathlib.Algebra.Module.Rat

/-! # Model of `unsplit_points_ref` and `unsplit_grid`

`resqpy/grid/_points_functions.py` and `resqpy/derived_model/_unsplit_grid.py`.  Points are elements of any vector space over the
rationals: what is done to x, y and z is the same.  Undefined points and masks are left out, as are titles, properties and storage. -/

namespace Verif.Derived
open Verif.Py

variable {V : Type} [AddCommGroup V] [Module ℚ V]

/-- _points_functions.py:390-413: one plane of the result, given the plane of points by pillar.  The assignments do not meet, except
in a grid without columns; those which come last are tried first.  A corner or an edge of a grid without columns has an index of -1,
which is not modelled. -/
def unsplitNode (nj ni : Nat) (m : Pillars.Mapping) (pts : Nat → V) (j i : Nat) : V :=
  if j = nj ∧ i = ni then pts (m (nj - 1) (ni - 1) 1 1)
  else if j = nj ∧ i = 0 then pts (m (nj - 1) 0 1 0)
  else if j = 0 ∧ i = ni then pts (m 0 (ni - 1) 0 1)
  else if j = 0 ∧ i = 0 then pts (m 0 0 0 0)
  else if j = nj then (1 / 2 : ℚ) • (pts (m (nj - 1) (i - 1) 1 1) + pts (m (nj - 1) i 1 0))
  else if j = 0 then (1 / 2 : ℚ) • (pts (m 0 (i - 1) 0 1) + pts (m 0 i 0 0))
  else if i = ni then (1 / 2 : ℚ) • (pts (m (j - 1) (ni - 1) 1 1) + pts (m j (ni - 1) 0 1))
  else if i = 0 then (1 / 2 : ℚ) • (pts (m (j - 1) 0 1 0) + pts (m j 0 0 0))
  else (1 / 4 : ℚ) • (pts (m (j - 1) (i - 1) 1 1) + pts (m (j - 1) i 1 0) + pts (m j (i - 1) 0 1) + pts (m j i 0 0))

/-- What is used of a grid: the number of layers, `k_gaps`, the pillar tables and the points by raw K index and pillar.  For a grid
without split pillars the array of points has an axis for each of J and I; pillars are numbered in its natural order.; for `translationOf` (_drape_to_surface.py:207-220) -/
structure Grid (V : Type) where
  nk : Nat
  kGaps : Option Nat
  tab : Pillars.Grid
  pts : Nat → Nat → V
  /-- `array_unsplit_points`, by raw K index, J and I -/
  cache : Option (Nat → Nat → Nat → V)

/-- resqpy/grid/_grid.py:62-69 `nk_plus_k_gaps` -/
def Grid.nkPlusGaps (g : Grid V) : Nat := match g.kGaps with
  | none => g.nk
  | some n => g.nk + n

/-- _points_functions.py:357-417 `unsplit_points_ref`: the array and the grid afterwards.  The array has `nk_plus_k_gaps + 1` planes. -/
def unsplitPoints (g : Grid V) (cacheArray : Bool) : Res ((Nat → Nat → Nat → V) × Grid V) :=
  match g.cache with
  | some a => .ok (a, g)
  | none =>
    let keep (a : Nat → Nat → Nat → V) : (Nat → Nat → Nat → V) × Grid V := (a, if cacheArray then { g with cache := some a } else g)
    if g.tab.hasSplit then
      match Pillars.columnPillarMapping g.tab with
      | .error e => .error e
      | .ok m => .ok (keep fun k j i => unsplitNode g.tab.nj g.tab.ni m (g.pts k) j i)
    else .ok (keep fun k j i => g.pts k (j * (g.tab.ni + 1) + i))

/-- _unsplit_grid.py:58-77: the new grid.  The points are by pillar in natural order. -/
def unsplitGrid (g : Grid V) : Res (Grid V) :=
  if g.tab.hasSplit then
    match unsplitPoints g false with
    | .error e => .error e
    | .ok (a, _) =>
      if g.nkPlusGaps + 1 = g.nk + 1 then
        .ok { nk := g.nk, kGaps := g.kGaps, tab := ⟨g.tab.nj, g.tab.ni, false, [], [], []⟩,
              pts := fun k p => a k (p / (g.tab.ni + 1)) (p % (g.tab.ni + 1)), cache := none }
      else .error .assertion
  else .error .assertion

end Verif.Derived
