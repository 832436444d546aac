import Verif.Py.Basic
import Mathlib.Algebra.Order.Field.Basic
import Mathlib.Algebra.Module.Defs

/-! # Model of measured depth look-ups along wells: `resqpy/well/_trajectory.py`, `_wellbore_frame.py`, `_blocked_well.py` and
`blocked_well_frame.py`

Measured depths are elements of an ordered field `K` and points are vectors over it (simplification: no rounding).  One dimensional
arrays of measured depths are functions of the index together with their length.  A NaN of a property array is `none`. -/

namespace Verif.Wells
open Verif.Py

variable {K : Type*} [Field K] [LinearOrder K]
variable {V : Type*} [AddCommGroup V] [Module K V]

/-! ## trajectories -/

/-- _trajectory.py:130-150 the attributes of a trajectory that `xyz_for_md` reads -/
structure Traj (K V : Type*) where
  knots : ℕ
  md : ℕ → K
  cp : ℕ → V
  start : K
  finish : K
  datum : V

/-- _trajectory.py:656-657 the local function interpolate -/
def interpolate (p1 p2 : V) (f : K) : V := f • p2 + (1 - f) • p1

/-- _trajectory.py:659-669 the local function search -/
def search (t : Traj K V) (m : K) (i1 i2 : ℕ) : V :=
  if i2 - i1 ≤ 1 then
    if m = t.md i1 then t.cp i1
    else interpolate (t.cp i1) (t.cp (i1 + 1)) ((m - t.md i1) / (t.md (i1 + 1) - t.md i1))
  else if m ≤ t.md (i1 + (i2 - i1) / 2) then search t m i1 (i1 + (i2 - i1) / 2)
  else search t m (i1 + (i2 - i1) / 2) i2
termination_by i2 - i1

/-- _trajectory.py:639-677 Trajectory.xyz_for_md -/
def xyzForMd (t : Traj K V) (m : K) : Option V :=
  if m < 0 ∨ t.finish < m ∨ t.md (t.knots - 1) < m then none
  else if m ≤ t.start then
    if t.start = 0 then some t.datum
    else some (interpolate t.datum (t.cp 0) (m / t.start))
  else some (search t m 0 (t.knots - 1))

/-! ## blocked wells -/

/-- _blocked_well.py:125-149 the attributes of a blocked well that the functions below read -/
structure Blocked (K : Type*) where
  nodes : ℕ
  md : ℕ → K
  gi : List ℤ
  cells : ℕ

/-- _blocked_well.py:355-370 BlockedWell.map_cell_and_grid_indices: the loop from cell number `j` on -/
def mapCellFrom : List ℤ → ℤ → List ℤ
  | [], _ => []
  | g :: gs, j => if g = -1 then -1 :: mapCellFrom gs j else j :: mapCellFrom gs (j + 1)

/-- _blocked_well.py:355-370 BlockedWell.map_cell_and_grid_indices -/
def mapCell (b : Blocked K) : List ℤ := mapCellFrom b.gi 0

/-- _blocked_well.py:372-384 BlockedWell.compressed_grid_indices -/
def compressed (b : Blocked K) : Res (List ℤ) :=
  if (b.gi.filter (fun g => decide (0 ≤ g))).length = b.cells then .ok (b.gi.filter (fun g => decide (0 ≤ g)))
  else .error .assertion

/-- _blocked_well.py:440-445 the loop of BlockedWell._set_cell_interval_map from interval `ii` and cell number `ci` on -/
def cellIntervalFrom : List ℤ → ℕ → ℕ → List ℕ → Res (List ℕ × ℕ)
  | [], _, ci, arr => .ok (arr, ci)
  | g :: gs, ii, ci, arr =>
    if g < 0 then cellIntervalFrom gs (ii + 1) ci arr
    else if ci < arr.length then cellIntervalFrom gs (ii + 1) (ci + 1) (arr.set ci ii)
    else .error .index

/-- _blocked_well.py:436-446 BlockedWell._set_cell_interval_map (the grid indices of the intervals are taken to be an array of length
node count less one, which is checked when the well is loaded, 313-322) -/
def cellIntervalMap (b : Blocked K) : Res (List ℕ) :=
  match cellIntervalFrom b.gi 0 0 (List.replicate b.cells 0) with
  | .error e => .error e
  | .ok (arr, ci) => if ci = b.cells then .ok arr else .error .assertion

/-- _blocked_well.py:412-420 BlockedWell.interval_for_cell (the cached map is a function of the well, so the cache is not modelled) -/
def intervalForCell (b : Blocked K) (ci : ℕ) : Res ℕ :=
  if ¬ ci < b.cells then .error .assertion
  else if b.nodes = b.cells + 1 then .ok ci
  else match cellIntervalMap b with
    | .error e => .error e
    | .ok arr => match arr[ci]? with
      | none => .error .index
      | some ii => .ok ii

/-- _blocked_well.py:422-434 BlockedWell.entry_and_exit_mds -/
def entryAndExit (b : Blocked K) (ci : ℕ) : Res (K × K) :=
  match intervalForCell b ci with
  | .error e => .error e
  | .ok ii => .ok (b.md ii, b.md (ii + 1))

/-- _blocked_well.py:1749-1755 the loop of BlockedWell.wb_cell_for_md from interval `i` and cell number `ci` on -/
def wbCellFrom (b : Blocked K) (m : K) : List ℤ → ℕ → ℤ → ℤ × K
  | [], _, _ => (-1, 1)
  | g :: gs, i, ci =>
    if m ≤ b.md (i + 1) then
      ((if g < 0 then -1 else ci), (m - b.md i) / (b.md (i + 1) - b.md i))
    else wbCellFrom b m gs (i + 1) (if 0 ≤ g then ci + 1 else ci)

/-- _blocked_well.py:1743-1756 BlockedWell.wb_cell_for_md -/
def wbCellForMd (b : Blocked K) (m : K) : ℤ × K :=
  if m < b.md 0 then (-1, 0) else wbCellFrom b m b.gi 0 0

/-- _blocked_well.py:2151-2170 the loop over perforations of BlockedWell.__get_part_perf_fraction_for_interval, for an interval from `a`
to `b` with the length found so far -/
def perfLength (a b : K) : List (K × K) → K → K
  | [], acc => acc
  | (s, e) :: ps, acc =>
    if e ≤ a ∨ b ≤ s then perfLength a b ps acc
    else if s ≤ a then
      if b ≤ e then acc + (b - a)
      else perfLength a b ps (acc + (e - a))
    else if b ≤ e then perfLength a b ps (acc + (b - s))
    else perfLength a b ps (acc + (e - s))

/-- _blocked_well.py:2143-2172 BlockedWell.__get_part_perf_fraction_for_interval where there is no PPERF property: whether the interval is
to be skipped, and the fraction -/
def partPerf (tol a b : K) (ps : Option (List (K × K))) : Bool × K :=
  match ps with
  | none => (false, 1)
  | some l =>
    if perfLength a b l 0 < tol then (true, min 1 (0 / (b - a)))
    else (false, min 1 (perfLength a b l 0 / (b - a)))

/-! ## wellbore frames -/

/-- _wellbore_frame.py:85-89 the nodes of a wellbore frame -/
structure Frame (K : Type*) where
  nodes : ℕ
  md : ℕ → K

/-- _wellbore_frame.py:163-181 WellboreFrame.interval_for_md; the for loop returns at the first interval whose end is not shallower -/
def intervalForMd (w : Frame K) (m : K) : ℤ × K :=
  if m < w.md 0 then (-1, 0)
  else match (List.range (w.nodes - 1)).find? (fun i => decide (m ≤ w.md (i + 1))) with
    | some i => (i, (m - w.md i) / (w.md (i + 1) - w.md i))
    | none => (-1, 1)

/-- blocked_well_frame.py:40-47 an interval index of -1 is replaced by the first or the last interval (the shallow or the deep end) -/
def entryFix (r : ℤ × K) : ℤ × K := if r.1 = -1 then (0, 0) else r

/-- blocked_well_frame.py:44-47 -/
def exitFix (w : Frame K) (r : ℤ × K) : ℤ × K := if r.1 = -1 then ((w.nodes : ℤ) - 2, 1) else r

/-- blocked_well_frame.py:48-68 the contributions once entry and exit intervals are known: triplets of interval, fraction of the interval,
fraction of the cell -/
def contribBetween (w : Frame K) (e x : K) (a : ℤ) (af : K) (z : ℤ) (zf : K) : Res (List (ℤ × K × K)) :=
  if ¬ a ≤ z then .error .assertion
  else if z = a then
    if ¬ af ≤ zf then .error .assertion
    else if zf = af then .ok []
    else .ok [(a, zf - af, (min x (w.md (z.toNat + 1)) - max e (w.md a.toNat)) / (x - e))]
  else
    .ok ((a, 1 - af, (w.md (a.toNat + 1) - max e (w.md a.toNat)) / (x - e)) ::
      ((List.range (z.toNat - (a.toNat + 1))).map (fun k : ℕ => ((a + 1 + (k : ℤ)), (1 : K),
        (w.md (a.toNat + 1 + k + 1) - w.md (a.toNat + 1 + k)) / (x - e))) ++
      [(z, zf, (min x (w.md (z.toNat + 1)) - w.md z.toNat) / (x - e))]))

/-- blocked_well_frame.py:29-68 the body of the loop of blocked_well_frame_contributions_list, for a cell entered at `e` and left at `x`
(simplification: the assertions that the fractions lie between 0 and 1, 56, 62 and 67, are left out; they hold, see the theorems) -/
def contributions (w : Frame K) (e x : K) : Res (List (ℤ × K × K)) :=
  if ((intervalForMd w x).1 = -1 ∧ (intervalForMd w x).2 < 1 / 2) ∨
      ((intervalForMd w e).1 = -1 ∧ 1 / 2 < (intervalForMd w e).2) then .ok []
  else if (intervalForMd w e).1 = -1 ∧ ¬ (intervalForMd w e).2 < 1 / 2 then .error .assertion
  else if (intervalForMd w x).1 = -1 ∧ ¬ 1 / 2 < (intervalForMd w x).2 then .error .assertion
  else contribBetween w e x (entryFix (intervalForMd w e)).1 (entryFix (intervalForMd w e)).2
    (exitFix w (intervalForMd w x)).1 (exitFix w (intervalForMd w x)).2

/-- blocked_well_frame.py:14-70 blocked_well_frame_contributions_list: one entry for each blocked interval of the well -/
def contribList (w : Frame K) (b : Blocked K) : List ℤ → ℕ → Res (List (List (ℤ × K × K)))
  | [], _ => .ok []
  | g :: gs, ii =>
    if g < 0 then contribList w b gs (ii + 1)
    else match contributions w (b.md ii) (b.md (ii + 1)) with
      | .error er => .error er
      | .ok c => match contribList w b gs (ii + 1) with
        | .error er => .error er
        | .ok cs => .ok (c :: cs)

/-- blocked_well_frame.py:204-206 the active flag of a cell: any contributing frame interval active -/
def cellActive (act : ℕ → Bool) (c : List (ℤ × K × K)) : Bool := c.any (fun t => act t.1.toNat)

/-- blocked_well_frame.py:204-212 the perforation fraction of a cell -/
def cellPperf (act : ℕ → Bool) (c : List (ℤ × K × K)) : K :=
  min 1 (((c.filter (fun t => act t.1.toNat)).map (fun t => t.2.2)).sum)

/-- blocked_well_frame.py:215 the perforated length of a cell -/
def cellLength (act : ℕ → Bool) (c : List (ℤ × K × K)) (e x : K) : K := cellPperf act c * (x - e)

/-- blocked_well_frame.py:323-329 the permeability length of a cell -/
def cellKh (kh : ℕ → Option K) (c : List (ℤ × K × K)) : K :=
  (c.map (fun t => match kh t.1.toNat with
    | none => (0 : K)
    | some v => v * t.2.1)).sum

/-- blocked_well_frame.py:357-364 the loop for the skin of a cell: running value and sum of fractions -/
def skinLoop (skin : ℕ → Option K) : List (ℤ × K × K) → Option K → K → Option K × K
  | [], acc, fr => (acc, fr)
  | t :: ts, acc, fr =>
    match skin t.1.toNat with
    | none => skinLoop skin ts acc fr
    | some v => skinLoop skin ts (some (acc.getD 0 + v * t.2.2)) (fr + t.2.2)

/-- blocked_well_frame.py:353-366 the skin of a cell -/
def cellSkin (skin : ℕ → Option K) (c : List (ℤ × K × K)) : Option K :=
  if 0 < (skinLoop skin c none 0).2 then (skinLoop skin c none 0).1.map (· / (skinLoop skin c none 0).2)
  else (skinLoop skin c none 0).1

end Verif.Wells
