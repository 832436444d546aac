import Verif.Py.Basic
import Mathlib.Analysis.SpecialFunctions.Trigonometric.Arctan
import Mathlib.Analysis.SpecialFunctions.Trigonometric.Inverse
import Mathlib.LinearAlgebra.Matrix.Notation

/-! # Model of trajectories computed from deviation surveys: `resqpy/well/_trajectory.py`, `resqpy/olio/vector_utilities.py`

Numbers are reals and the trigonometric functions are exact (simplification: no rounding). -/

namespace Verif.Wells.Survey
open Verif.Py

noncomputable section

/-- for `rotateVector` (vector_utilities.py:380-382) -/
abbrev V3 := Fin 3 → ℝ

/-- math.radians; for `rotation3d` (vector_utilities.py:339-353) -/
def radians (d : ℝ) : ℝ := d * Real.pi / 180

/-- math.degrees; for `inclination` (_trajectory.py:678-699) -/
def degrees (r : ℝ) : ℝ := r * 180 / Real.pi

/-- vector_utilities.py:339-353 rotation_3d_matrix, for angles c, a and b in degrees about the x, z and y axes -/
def rotation3d (c a b : ℝ) : Matrix (Fin 3) (Fin 3) ℝ :=
  let cc := Real.cos (radians c)
  let ca := Real.cos (radians a)
  let cb := Real.cos (radians b)
  let sc := Real.sin (radians c)
  let sa := Real.sin (radians a)
  let sb := Real.sin (radians b)
  !![ca * cb, -(sa * cc) * cb + sb * sc, cb * (sa * sc) + sb * cc;
     sa, ca * cc, -sc * ca;
     -sb * ca, sa * cc * sb + cb * sc, -sb * (sa * sc) + cb * cc]

/-- vector_utilities.py:380-382 rotate_vector, with the matrix product written out -/
def rotateVector (m : Matrix (Fin 3) (Fin 3) ℝ) (v : V3) : V3 :=
  fun i => m i 0 * v 0 + m i 1 * v 1 + m i 2 * v 2

/-- vector_utilities.py:420-428 unit_vector_from_azimuth_and_inclination -/
def unitVector (az inc : ℝ) : V3 := rotateVector (rotation3d inc (180 - az) 0) ![0, 0, 1]

/-- one station of a deviation survey; for `delta` (_trajectory.py:342-365) -/
structure Station where
  md : ℝ
  az : ℝ
  inc : ℝ

/-- _trajectory.py:342-365 the displacement from one station to the next -/
def delta (s1 s2 : Station) : Res V3 :=
  if ¬ 0 < s2.md - s1.md then .error .assertion
  else if s1.inc = s2.inc ∧ s1.az = s2.az then .ok ((s2.md - s1.md) • unitVector s1.az s1.inc)
  else
    let i1 := radians s1.inc
    let i2 := radians s2.inc
    let az1 := radians s1.az
    let az2 := radians s2.az
    let cosTheta := min (max (Real.cos (i2 - i1) - Real.sin i1 * Real.sin i2 * (1 - Real.cos (az2 - az1))) (-1)) 1
    let theta := Real.arccos cosTheta
    if theta = 0 then .error .assertion
    else
      let halfRf := Real.tan ((1 / 2) * theta) / theta
      .ok ![(s2.md - s1.md) * halfRf * (Real.sin i1 * Real.sin az1 + Real.sin i2 * Real.sin az2),
            (s2.md - s1.md) * halfRf * (Real.sin i1 * Real.cos az1 + Real.sin i2 * Real.cos az2),
            (s2.md - s1.md) * halfRf * (Real.cos i1 + Real.cos i2)]

/-- _deviation_survey.py:97-111 what is read of a deviation survey; the flag for angles in degrees is never looked at -/
structure Survey where
  anglesInDegrees : Bool
  stations : List Station
  first : V3

/-- _trajectory.py:338-366 the loop of `__calculate_trajectory_from_inclination_and_azimuth`: the control points after one at `p` -/
def pointsFrom (p : V3) : List Station → Res (List V3)
  | [] => .ok []
  | [_] => .ok []
  | s1 :: s2 :: rest =>
    match delta s1 s2 with
    | .error e => .error e
    | .ok d => match pointsFrom (p + d) (s2 :: rest) with
      | .error e => .error e
      | .ok ps => .ok ((p + d) :: ps)

/-- _trajectory.py:330-332 the control points of the trajectory of a survey -/
def controlPoints (s : Survey) : Res (List V3) :=
  match pointsFrom s.first s.stations with
  | .error e => .error e
  | .ok ps => .ok (s.first :: ps)

/-- _trajectory.py:678-699 Trajectory.inclinations for one interval vector: `zf` is the factor from z units to xy units (one if they are the same);
the quotient of the division by zero is ignored by the code (694-697) -/
def inclination (zIncDown : Bool) (zf : ℝ) (v : V3) : ℝ :=
  let z := if zIncDown then v 2 * zf else -(v 2 * zf)
  let h := Real.sqrt (v 0 * v 0 + v 1 * v 1)
  let r := if z = 0 then Real.pi / 2 else Real.arctan (h / z)
  degrees (if r < 0 then r + Real.pi else r)

end
end Verif.Wells.Survey
