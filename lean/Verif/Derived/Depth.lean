import Verif.Py.Basic
import Mathlib.Analysis.SpecialFunctions.Sqrt

/-! # Model of `local_depth_adjustment`

`resqpy/derived_model/_local_depth_adjustment.py`.  Numbers are real.  Points are by interface and pillar, extra pillars included
(lines 107-111).  Titles, properties and storage are left out. -/

namespace Verif.Derived
open Verif.Py

noncomputable section
open Classical

/-- a point; for `pillarShift` (_local_depth_adjustment.py:125-135) -/
structure Pt where
  x : ℝ
  y : ℝ
  z : ℝ

/-- _local_depth_adjustment.py:196-207 `_decayed_shift` -/
def decayedShift (centreShift distance radius : ℝ) (shape : String) : Res ℝ :=
  if radius = 0 then .error .zeroDiv
  else
    let n := min (distance / radius) 1
    if shape = "linear" then .ok ((1 - n) * centreShift)
    else if shape = "quadratic" then
      if n ≥ 1 / 2 then .ok (2 * (1 - n) * (1 - n) * centreShift) else .ok (centreShift * (1 - 2 * n * n))
    else .error .value

/-- _local_depth_adjustment.py:125-135: the shift of one pillar, from its point at the reference interface; none where the pillar is
beyond the radius of influence -/
def pillarShift (cx cy radius centreShift : ℝ) (shape : String) (p : Pt) : Res (Option ℝ) :=
  let dx := cx - p.x
  let dy := cy - p.y
  let d2 := dx * dx + dy * dy
  if d2 > radius * radius then .ok none
  else match decayedShift centreShift (Real.sqrt d2) radius shape with
    | .error e => .error e
    | .ok s => .ok (some s)

/-- _local_depth_adjustment.py:124-140: the loop over pillars, with the count of those adjusted.  Each pillar is read before it is
changed and no other is. -/
def adjustLoop (ref : Nat) (cx cy radius centreShift : ℝ) (shape : String) :
    List Nat → (Nat → Nat → Pt) → Nat → Res ((Nat → Nat → Pt) × Nat)
  | [], pts, n => .ok (pts, n)
  | p :: ps, pts, n => match pillarShift cx cy radius centreShift shape (pts ref p) with
    | .error e => .error e
    | .ok none => adjustLoop ref cx cy radius centreShift shape ps pts n
    | .ok (some s) => adjustLoop ref cx cy radius centreShift shape ps
        (fun k q => if q = p then { pts k q with z := (pts k q).z + s } else pts k q) (n + 1)

/-- what is used of a coordinate reference system; for `localDepthAdjustment` (_local_depth_adjustment.py:93-151) -/
structure DCrs where
  rotation : ℝ
  xOffset : ℝ
  yOffset : ℝ
  zIncDown : Bool

/-- _local_depth_adjustment.py:93-151: the points of the new grid; none where the function returns `None`.  `nPoints` is the number of
interfaces and `nPillars` that of pillars. -/
def localDepthAdjustment (crs : DCrs) (nPoints nPillars : Nat) (pts : Nat → Nat → Pt) (cx cy radius centreShift : ℝ) (useLocal : Bool)
    (shape : String) (ref : Nat) : Res (Option (Nat → Nat → Pt)) :=
  if !useLocal && decide (crs.rotation > 1 / 1000) then .ok none
  else
    let cx := if useLocal then cx else cx - crs.xOffset
    let cy := if useLocal then cy else cy - crs.yOffset
    let centreShift := if crs.zIncDown then centreShift else -centreShift
    if ref < nPoints then
      match adjustLoop ref cx cy radius centreShift shape (List.range nPillars) pts 0 with
      | .error e => .error e
      | .ok (_, 0) => .ok none
      | .ok (pts', _) => .ok (some pts')
    else .error .assertion

end

end Verif.Derived
