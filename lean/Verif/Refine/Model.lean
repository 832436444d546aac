import Verif.FineCoarse.Model
import Mathlib.Algebra.Module.Rat

/-! # Model of `refined_grid`

`resqpy/derived_model/_refined_grid.py` and, for the properties inherited, `resqpy/property/grid_property_collection.py`.

Points are elements of any vector space over the rationals: what is done to x, y and z is the same.  Geometry is taken as defined
everywhere.  Titles, coordinate reference systems, parent windows and storage are left out. -/

namespace Verif.Refine
open Verif.Py Verif.FineCoarse

/-- What is used of a grid without split pillars: the extent, `k_gaps`, `k_gap_after_array`, `k_raw_index_array` and the points by raw
K index and pillar; for `coarsen` (_coarsened_grid.py:72) -/
structure Grid (V : Type) where
  nk : Nat
  nj : Nat
  ni : Nat
  kGaps : Option Nat
  after : Nat → Bool
  raw : Nat → Nat
  pts : Nat → Nat → Nat → V

/-- the truth of `grid.k_gaps`; for `coarsen` (_coarsened_grid.py:72) -/
def Grid.hasGaps {V : Type} (g : Grid V) : Bool := match g.kGaps with
  | none => false
  | some n => n != 0

/-- resqpy/grid/_grid.py:62-69 `nk_plus_k_gaps` -/
def Grid.nkPlusGaps {V : Type} (g : Grid V) : Nat := match g.kGaps with
  | none => g.nk
  | some n => g.nk + n

/-- the body of a loop over coarse slices, one after the other, with the results in a row; for `axisStops` (_refined_grid.py:263-272) -/
def collect {α : Type} : List (Res (List α)) → Res (List α)
  | [] => .ok []
  | .error e :: _ => .error e
  | .ok l :: ls => match collect ls with
    | .error e => .error e
    | .ok m => .ok (l ++ m)

/-- a stop along an axis: the coarse slice and the fraction of the way through it; no fraction beyond the last slice; for `axisStops` (_refined_grid.py:263-272) -/
abbrev Stop := Nat × Option Rat

/-- _refined_grid.py:263-272 and 280-289: the stops along the J or I axis, in order, which is that of `fj0` and `fi0`.  `interpolation`
gives as many values as the ratio, so that the loop over `range(ratio)` is one over its values. -/
def axisStops (a : Axis) : Res (List Stop) :=
  match collect ((List.range a.coarse.toNat).map fun (c : Nat) => match a.interpolation (c : Int) with
    | .error e => .error e
    | .ok l => .ok (l.map fun t => (c, some t))) with
  | .error e => .error e
  | .ok l => .ok (l ++ [(a.coarse.toNat, none)])

variable {V : Type} [AddCommGroup V] [Module ℚ V]

/-- _refined_grid.py:274-277 and 290-293: the value at a stop -/
def atStop (f : Nat → V) : Stop → V
  | (c, none) => f c
  | (c, some t) => t • f (c + 1) + (1 - t) • f c

/-- a stop along the K axis; the last component is true for the base of a K gap's layer above (`flk0 == k_ratio`) -/
abbrev KStop := Nat × Option Rat × Bool

/-- _refined_grid.py:230-245: the stops along the K axis, in order -/
def kStops (src : Grid V) (a : Axis) : Res (List KStop) :=
  match collect ((List.range a.coarse.toNat).map fun (c : Nat) => match a.interpolation (c : Int) with
    | .error e => .error e
    | .ok l => .ok ((l.map fun t => (c, some t, false)) ++
        if src.hasGaps && decide ((c : Int) < a.coarse - 1) && src.after c then [(c, some 1, true)] else [])) with
  | .error e => .error e
  | .ok l => .ok (l ++ [(a.coarse.toNat, none, false)])

/-- _refined_grid.py:246-251 and 256-261: the plane of points at a stop -/
def kPlane (src : Grid V) : KStop → Nat → Nat → V
  | (c, none, _), j, i => if src.hasGaps then src.pts (src.raw (c - 1) + 1) j i else src.pts c j i
  | (c, some t, _), j, i =>
    if src.hasGaps then t • src.pts (src.raw c + 1) j i + (1 - t) • src.pts (src.raw c) j i
    else t • src.pts (c + 1) j i + (1 - t) • src.pts c j i

/-- the variables of the loop over K stops: `fk0`, `gaps_so_far`, `k_gap_after_array` and `k_raw_index_array` -/
structure KState where
  fk : Nat
  gaps : Nat
  after : Nat → Bool
  raw : Nat → Nat

/-- _refined_grid.py:252-255 and 305-308 -/
def kStep (hasGaps : Bool) (nk : Nat) (st : KState) (s : KStop) : KState :=
  if s.2.2 then
    { st with gaps := st.gaps + 1, after := if hasGaps then fun k => if k = st.fk - 1 then true else st.after k else st.after }
  else
    { st with fk := st.fk + 1,
              raw := if hasGaps && decide (st.fk < nk) then fun k => if k = st.fk then st.fk + st.gaps else st.raw k else st.raw }

/-- _refined_grid.py:196-319 `_refined_unfaulted_grid`.  As `fk0 + gaps_so_far` goes up by one with each stop, the points of a stop
are stored at its number in the list of stops. -/
def refinedUnfaulted (src : Grid V) (s : FC) : Res (Grid V) :=
  match axisStops (s.ax 1), axisStops (s.ax 2), kStops src (s.ax 0) with
  | .ok js, .ok is, .ok ks =>
    let nk := (s.ax 0).fine.toNat
    let st := ks.foldl (kStep src.hasGaps nk) ⟨0, 0, fun _ => false, fun _ => 0⟩
    let g : Grid V :=
      { nk := nk, nj := (s.ax 1).fine.toNat, ni := (s.ax 2).fine.toNat, kGaps := src.kGaps, after := st.after, raw := st.raw
        pts := fun r j i => match ks[r]?, js[j]?, is[i]? with
          | some k, some sj, some si => atStop (fun i' => atStop (fun j' => kPlane src k j' i') sj) si
          | _, _, _ => 0 }
    if (is.length : Int) = (s.ax 2).fine + 1 ∧ (js.length : Int) = (s.ax 1).fine + 1 ∧ (st.fk : Int) = (s.ax 0).fine + 1 ∧
        g.nk + st.gaps = g.nkPlusGaps then .ok g
    else .error .assertion
  | _, _, _ => .error .type

/-- _refined_grid.py:90-92 and 109-111: the checks made, and the refinement of a grid without split pillars -/
def refineUnfaulted (src : Grid V) (s : FC) : Res (Grid V) :=
  if (s.ax 0).coarse = src.nk ∧ (s.ax 1).coarse = src.nj ∧ (s.ax 2).coarse = src.ni then
    if s.valid then refinedUnfaulted src s else .error .assertion
  else .error .assertion

/-! ## Grids with split pillars -/

/-- corner points of one cell; for `interpolatedPoint` (_points_functions.py:1087-1134) -/
abbrev CellCp (V : Type) := Nat → Nat → Nat → V

/-- resqpy/grid/_points_functions.py:1087-1134 `interpolated_points`, for one triple of fractions -/
def interpolatedPoint (cp : CellCp V) (fk fj fi : Rat) : V :=
  let c00 := (1 - fi) • cp 0 0 0 + fi • cp 0 0 1
  let c01 := (1 - fi) • cp 0 1 0 + fi • cp 0 1 1
  let c10 := (1 - fi) • cp 1 0 0 + fi • cp 1 0 1
  let c11 := (1 - fi) • cp 1 1 0 + fi • cp 1 1 1
  let c0 := (1 - fj) • c00 + fj • c01
  let c1 := (1 - fj) • c10 + fj • c11
  (1 - fk) • c0 + fk • c1

/-- for a coarse slice: the base, the ratio and the interpolation vector with a one added (lines 155-158, 160-163 and 165-169) -/
def sliceData (a : Axis) (c : Nat) : Res (Int × Int × List Rat) :=
  match a.fineBase c with
  | .error e => .error e
  | .ok b => match a.ratio c with
    | .error e => .error e
    | .ok r => match a.interpolation c with
      | .error e => .error e
      | .ok l => .ok (b, r, l ++ [1])

/-- `fine_cp`: cells and corners; none where nothing has been written; for `writeCell` (_refined_grid.py:171-188) -/
abbrev FineCp (V : Type) := Nat → Nat → Nat → Nat → Nat → Nat → Option V

/-- _refined_grid.py:171-188: the eight slice assignments for one coarse cell -/
def writeCell (cp : CellCp V) (dk dj di : Int × Int × List Rat) (a : FineCp V) : FineCp V :=
  fun k j i kp jp ip =>
    if (dk.1 ≤ k ∧ (k : Int) < dk.1 + dk.2.1) ∧ (dj.1 ≤ j ∧ (j : Int) < dj.1 + dj.2.1) ∧ (di.1 ≤ i ∧ (i : Int) < di.1 + di.2.1) ∧
        kp ≤ 1 ∧ jp ≤ 1 ∧ ip ≤ 1 then
      match dk.2.2[(k - dk.1).toNat + kp]?, dj.2.2[(j - dj.1).toNat + jp]?, di.2.2[(i - di.1).toNat + ip]? with
      | some fk, some fj, some fi => some (interpolatedPoint cp fk fj fi)
      | _, _, _ => none
    else a k j i kp jp ip

/-- _refined_grid.py:154-188: the loops over coarse cells; `cp k j i` are the corner points of a coarse cell -/
def fineCpLoop (s : FC) (cp : Nat → Nat → Nat → CellCp V) : List (Nat × Nat × Nat) → FineCp V → Res (FineCp V)
  | [], a => .ok a
  | (k, j, i) :: cells, a => match sliceData (s.ax 0) k with
    | .error e => .error e
    | .ok dk => match sliceData (s.ax 1) j with
      | .error e => .error e
      | .ok dj => match sliceData (s.ax 2) i with
        | .error e => .error e
        | .ok di => fineCpLoop s cp cells (writeCell (cp k j i) dk dj di a)

/-- the cells of a grid in the order of three nested loops; for `refinedCp` (_refined_grid.py:90-92) -/
def cellsOf (nk nj ni : Nat) : List (Nat × Nat × Nat) :=
  (List.range nk).flatMap fun k => (List.range nj).flatMap fun j => (List.range ni).map fun i => (k, j, i)

/-- _refined_grid.py:90-92 and 149-188: the corner points made by `_refined_faulted_grid` and handed to `grid_from_cp`, which is
modelled in `Verif.CpGrid` -/
def refinedCp (nk nj ni : Nat) (cp : Nat → Nat → Nat → CellCp V) (s : FC) : Res (FineCp V) :=
  if (s.ax 0).coarse = nk ∧ (s.ax 1).coarse = nj ∧ (s.ax 2).coarse = ni then
    if s.valid then fineCpLoop s cp (cellsOf nk nj ni) (fun _ _ _ _ _ _ => none) else .error .assertion
  else .error .assertion

end Verif.Refine
