import Verif.Wells.Survey
import Mathlib.LinearAlgebra.Matrix.Determinant.Basic
import Mathlib.Algebra.Order.Floor.Ring

/-! # Model of bearings and rotations: `resqpy/olio/vector_utilities.py`

Numbers are reals and the trigonometric functions are exact (simplification: no rounding).  Not-a-number is `none`. -/

namespace Verif.Rotate
open Verif.Wells.Survey (V3 radians degrees rotation3d)
open Verif.Py

noncomputable section

/-- a matrix; for `axial` (vector_utilities.py:314-331) -/
abbrev M3 := Matrix (Fin 3) (Fin 3) ℝ

/-- vector_utilities.py:237-239 dot_product -/
def dot (a b : V3) : ℝ := a 0 * b 0 + a 1 * b 1 + a 2 * b 2

/-- vector_utilities.py:252-254 naive_length -/
def length (v : V3) : ℝ := Real.sqrt (dot v v)

/-- vector_utilities.py:75-83 unit_vector -/
def unitVector (v : V3) : V3 := if length v = 0 then v else (1 / length v) • v

/-- the remainder of floats; for `unitFromAzimuth` (vector_utilities.py:122-129) -/
def fmod (a b : ℝ) : ℝ := a - b * ⌊a / b⌋

/-- vector_utilities.py:122-129 unit_vector_from_azimuth -/
def unitFromAzimuth (az : ℝ) : V3 := ![Real.sin (radians (fmod az 360)), Real.cos (radians (fmod az 360)), 0]

/-- vector_utilities.py:132-152 azimuth -/
def azimuth (v : V3) : ℝ :=
  let u := unitVector ![v 0, v 1, 0]
  let x := u 0
  let y := u 1
  if x = 0 ∧ y = 0 then 0
  else
    let r :=
      if |y| ≤ |x| then
        let r := Real.pi / 2 - Real.arctan (y / x)
        if x < 0 then r + Real.pi else r
      else
        let r := Real.arctan (x / y)
        if y < 0 then r + Real.pi else r
    degrees (if r < 0 then r + 2 * Real.pi else r)

/-- division of floats where nought by nought may come up; for `azimuthOfArray` (vector_utilities.py:155-172) -/
def nanDiv (a b : ℝ) : Option ℝ := if b = 0 then none else some (a / b)

/-- vector_utilities.py:96-104 unit_vectors, for one vector of an array of two dimensions -/
def unitVectorOfArray (v : V3) : V3 := if length v = 0 then fun _ => 0 else (1 / length v) • v

/-- vector_utilities.py:96-104 unit_vectors, for an array of three dimensions: the tuple of two lists of indices which `np.where` returns is taken
as one list of indices into the first axis -/
def unitVectors3 (a : List (List V3)) : Res (List (List V3)) :=
  let zeros : List (Nat × Nat) := a.zipIdx.flatMap fun r => (r.1.zipIdx.filter fun e => decide (length e.1 = 0)).map fun e => (r.2, e.2)
  let rows := zeros.map (·.1) ++ zeros.map (·.2)
  if rows.all fun r => decide (r < a.length) then
    .ok (a.zipIdx.map fun r => r.1.map fun v => if r.2 ∈ rows then (fun _ => 0) else (1 / length v) • v)
  else .error .index

/-- vector_utilities.py:155-172 azimuths, for one vector of an array of two dimensions -/
def azimuthOfArray (v : V3) : Option ℝ :=
  let u := unitVectorOfArray ![v 0, v 1, 0]
  let x := u 0
  let y := u 1
  let r :=
    if |y| ≤ |x| then
      if x < 0 then (nanDiv y x).map fun t => Real.pi * 3 / 2 - Real.arctan t else (nanDiv y x).map fun t => Real.pi / 2 - Real.arctan t
    else
      if y < 0 then (nanDiv x y).map fun t => Real.pi + Real.arctan t else (nanDiv x y).map fun t => Real.arctan t
  r.map fun r => degrees (fmod r (2 * Real.pi))

/-- vector_utilities.py:175-180 inclination -/
def inclination (v : V3) : ℝ := degrees (Real.arccos (unitVector v 2))

/-- vector_utilities.py:302-305 radians_difference -/
def radiansDifference (a b : V3) : ℝ := Real.arccos (min 1 (max (-1) (dot (unitVector a) (unitVector b))))

/-- vector_utilities.py:314-331 rotation_matrix_3d_axial -/
def axial (axis : Fin 3) (angle : ℝ) : M3 := fun i j =>
  let a : Fin 3 := axis + 1
  let b : Fin 3 := a + 1
  if i = b ∧ j = a then Real.sin (radians angle)
  else if i = a ∧ j = b then -Real.sin (radians angle)
  else if i = b ∧ j = b then Real.cos (radians angle)
  else if i = a ∧ j = a then Real.cos (radians angle)
  else if i = j then 1 else 0

/-- vector_utilities.py:374-377 reverse_rotation_3d_matrix, of `rotation3d` (339-353) -/
def reverseRotation3d (c a b : ℝ) : M3 := (rotation3d c a b).transpose

/-- vector_utilities.py:385-387 rotate_array, with the points as a list -/
def rotateArray (m : M3) (ps : List V3) : List V3 := ps.map m.mulVec

/-- vector_utilities.py:396-417 rotate_xyz_array_around_z_axis -/
def rotateAroundZ (ps : List V3) (target : V3) : List V3 := rotateArray (axial 2 (azimuth ![target 0, target 1, 0] - 90)) ps

/-- vector_utilities.py:420-428 unit_vector_from_azimuth_and_inclination -/
def unitFromAzimuthAndInclination (az inc : ℝ) : V3 := (rotation3d inc (180 - az) 0).mulVec ![0, 0, 1]

/-- vector_utilities.py:431-442 tilt_3d_matrix -/
def tilt3d (az dip : ℝ) : M3 := axial 2 (-az) * axial 0 dip * axial 2 az

/-- vector_utilities.py:445-456 rotation_matrix_3d_vector; `none` if it is not-a-number (or infinite) -/
def vectorToZ (v : V3) : Option M3 :=
  if length v = 0 then none
  else
    let u := (1 / length v) • v
    if 1 + u 2 = 0 then none
    else
      let k : M3 := !![0, 0, -u 0; 0, 0, -u 1; u 0, u 1, 0]
      let r : M3 := 1 + k + (1 / (1 + u 2)) • (k * k)
      some fun i j => if i.val < 2 then -r i j else r i j

/-- vector_utilities.py:474-481 tilt_points, with the points as a list -/
def tiltPoints (pivot : V3) (az dip : ℝ) (ps : List V3) : List V3 := (rotateArray (tilt3d az dip) (ps.map fun p => p - pivot)).map fun p => p + pivot

/-- vector_utilities.py:484-495 project_points_onto_plane -/
def projectOntoPlane (plane normal : V3) (ps : List V3) : List V3 :=
  let az := azimuth normal
  let incl := inclination normal
  let ps := tiltPoints plane az (-incl) ps
  let ps := ps.map fun p => Function.update p 2 (plane 2)
  tiltPoints plane az incl ps

end

end Verif.Rotate
