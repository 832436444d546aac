import Verif.Py.Basic

/-! # Model of `pinchout_connection_set` in `resqpy/fault/_gcs_functions.py` -/

namespace Verif.Pinchout
open Verif.Py

/-- What the function uses of a grid: the pinched out array `po`, the inactive mask `dead`, and whether there is a K gap after
each layer (`grid.k_gaps and grid.k_gap_after_array[k]`).; for `skipPinched` (_gcs_functions.py:47-48) -/
structure Grid where
  nk : Nat
  nj : Nat
  ni : Nat
  po : Nat → Nat → Nat → Bool
  dead : Nat → Nat → Nat → Bool
  gapAfter : Nat → Bool

/-- loop at _gcs_functions.py:47-48; the first argument bounds the steps -/
def skipPinched (g : Grid) (j i : Nat) : Nat → Nat → Nat
  | 0, ka => ka
  | n + 1, ka => if ka + 1 < g.nk ∧ g.po ka j i = true then skipPinched g j i n (ka + 1) else ka

/-- loop at _gcs_functions.py:49-50 -/
def skipOpen (g : Grid) (j i : Nat) : Nat → Nat → Nat
  | 0, ka => ka
  | n + 1, ka => if ka + 1 < g.nk ∧ g.po (ka + 1) j i = false then skipOpen g j i n (ka + 1) else ka

/-- loop at _gcs_functions.py:58-59 -/
def findBase (g : Grid) (j i : Nat) : Nat → Nat → Nat
  | 0, kb => kb
  | n + 1, kb => if kb < g.nk ∧ g.po kb j i = true then findBase g j i n (kb + 1) else kb

/-- loop at _gcs_functions.py:46-67 for one column, from `ka` on: the pairs of layers appended.  The first argument bounds the
iterations; the inner loops take fewer than nk steps. -/
def scanColumn (g : Grid) (skipInactive : Bool) (j i : Nat) : Nat → Nat → List (Nat × Nat)
  | 0, _ => []
  | fuel + 1, ka =>
    let ka := skipOpen g j i g.nk (skipPinched g j i g.nk ka)
    if ka + 1 ≥ g.nk then []
    else if (skipInactive && g.dead ka j i) || g.gapAfter ka then scanColumn g skipInactive j i fuel (ka + 1)
    else
      let kb := findBase g j i g.nk (ka + 1)
      if kb ≥ g.nk then []
      else if skipInactive && g.dead kb j i then scanColumn g skipInactive j i fuel (kb + 1)
      else (ka, kb) :: scanColumn g skipInactive j i fuel (kb + 1)

/-- `Grid.natural_cell_index`, resqpy/grid/_grid.py: row major index of a cell; for `pinchoutPairs` (_gcs_functions.py:41-67) -/
def naturalCellIndex (g : Grid) (k j i : Nat) : Nat := (k * g.nj + j) * g.ni + i

/-- _gcs_functions.py:41-67: the cell index pair list of `pinchout_connection_set` -/
def pinchoutPairs (g : Grid) (skipInactive : Bool) : List (Nat × Nat) :=
  (List.range g.nj).flatMap fun j => (List.range g.ni).flatMap fun i =>
    (scanColumn g skipInactive j i (g.nk + 1) 0).map fun p => (naturalCellIndex g p.1 j i, naturalCellIndex g p.2 j i)

end Verif.Pinchout
