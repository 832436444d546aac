import Verif.Refine.Model

/-! # Model of `coarsened_grid`

`resqpy/derived_model/_coarsened_grid.py`.  Geometry is taken as defined everywhere, so that there is nothing to fill in (lines 74-84).
Titles, coordinate reference systems, parent windows and storage are left out; for the properties see `Verif.Upscale`. -/

namespace Verif.Refine
open Verif.Py Verif.FineCoarse

variable {V : Type} [AddCommGroup V] [Module ℚ V]

/-- _coarsened_grid.py:120-123: the running sums of the ratios, over `range(grid.nk)`; `k` is the last index set -/
def kIndices : List Int → Nat → Int → Res (List Int)
  | _, 0, k => .ok [k]
  | [], _ + 1, _ => .error .index
  | r :: rs, n + 1, k => match kIndices rs n (k + r) with
    | .error e => .error e
    | .ok l => .ok (k :: l)

/-- _coarsened_grid.py:116-124 and the first index of `source_points` at 131 and 134: the K indices sampled.  numpy repeats a single row;
any other number of rows which is not `nk + 1` is refused.  A slice with a negative step from zero is empty. -/
def kRows (a : Axis) (nk srcNk : Nat) : Res (List Int) :=
  match a.const with
  | some (Int.ofNat (r + 1)) =>
    let rows := (List.range (srcNk / (r + 1) + 1)).map fun n : Nat => (n : Int) * (r + 1)
    if rows.length = nk + 1 then .ok rows
    else if rows.length = 1 then .ok (List.replicate (nk + 1) 0)
    else .error .value
  | some (Int.negSucc _) => .error .value
  | _ => match a.vec with
    | none => .error .type
    | some v => match kIndices v nk 0 with
      | .error e => .error e
      | .ok l => if l.getLast? = some (srcNk : Int) then .ok l else .error .assertion

/-- _coarsened_grid.py:72 and 85-136.  `source_points` are in natural order of pillars, so that the pillar with number `fp` is that of row
`fp // (ni + 1)` and column `fp % (ni + 1)` of the source grid; a valid refinement gives numbers within the array. -/
def coarsen (split : Bool) (src : Grid V) (s : FC) : Res (Grid V) :=
  if split then .error .assertion
  else if src.hasGaps then .error .assertion
  else if (s.ax 0).fine = src.nk ∧ (s.ax 1).fine = src.nj ∧ (s.ax 2).fine = src.ni then
    if s.valid then
      let nk := (s.ax 0).coarse.toNat
      let nj := (s.ax 1).coarse.toNat
      let ni := (s.ax 2).coarse.toNat
      match kRows (s.ax 0) nk src.nk with
      | .error e => .error e
      | .ok rows =>
        if (List.range ((nj + 1) * (ni + 1))).all fun p => (s.finePillar p).toOption.isSome then
          .ok { nk := nk, nj := nj, ni := ni, kGaps := none, after := fun _ => false, raw := fun k => k
                pts := fun k j i => match rows[k]?, s.finePillar ((j * (ni + 1) + i : Nat) : Int) with
                  | some kf, .ok fp => src.pts kf.toNat (fp.toNat / (src.ni + 1)) (fp.toNat % (src.ni + 1))
                  | _, _ => 0 }
        else .error .type
    else .error .assertion
  else .error .assertion

end Verif.Refine
