import Verif.Rotate.Props

/-! # C95: rotations, C96: tilting, C97: projecting onto planes -/

namespace Verif.Rotate
open Verif.Wells.Survey (V3 radians degrees rotation3d)

noncomputable section

/-- a rotation: keeps dot products (thus lengths, distances and angles) and handedness -/
def Rotation (m : M3) : Prop := m.transpose * m = 1 ∧ m.det = 1

theorem Rotation.mul {m n : M3} (hm : Rotation m) (hn : Rotation n) : Rotation (m * n) := by
  refine ⟨?_, ?_⟩
  · rw [Matrix.transpose_mul, Matrix.mul_assoc, ← Matrix.mul_assoc m.transpose, hm.1, Matrix.one_mul, hn.1]
  · rw [Matrix.det_mul, hm.2, hn.2, one_mul]

theorem Rotation.inverse {m : M3} (h : Rotation m) : m * m.transpose = 1 := mul_eq_one_comm.mp h.1

theorem axial_rotation (axis : Fin 3) (t : ℝ) : Rotation (axial axis t) := by
  have h := Real.sin_sq_add_cos_sq (radians t)
  have hc : axial axis t = axial 0 t ∨ axial axis t = axial 1 t ∨ axial axis t = axial 2 t := by
    fin_cases axis
    · exact Or.inl rfl
    · exact Or.inr (Or.inl rfl)
    · exact Or.inr (Or.inr rfl)
  rcases hc with e | e | e
  · rw [e, axial_0]
    constructor
    · ext i j
      rw [mul_apply]
      fin_cases i <;> fin_cases j <;> simp <;> first | linear_combination h | ring
    · rw [Matrix.det_fin_three]
      simp
      linear_combination h
  · rw [e, axial_1]
    constructor
    · ext i j
      rw [mul_apply]
      fin_cases i <;> fin_cases j <;> simp <;> first | linear_combination h | ring
    · rw [Matrix.det_fin_three]
      simp
      linear_combination h
  · rw [e, axial_2]
    constructor
    · ext i j
      rw [mul_apply]
      fin_cases i <;> fin_cases j <;> simp <;> first | linear_combination h | ring
    · rw [Matrix.det_fin_three]
      simp
      linear_combination h

/-- C95: the matrix for a turn about an axis is a rotation which leaves the axis in place. -/
theorem C95_axial (axis : Fin 3) (t : ℝ) : Rotation (axial axis t) ∧ (axial axis t).mulVec (Pi.single axis 1) = Pi.single axis 1 := by
  refine ⟨axial_rotation axis t, ?_⟩
  funext i
  rw [mulVec_apply]
  fin_cases axis
  · fin_cases i <;> simp [axial]
  · fin_cases i <;> simp [axial]
  · fin_cases i <;> simp [axial]

/-- C95: it turns the next axis towards the one after that, by the angle. -/
theorem C95_axial_turns (axis : Fin 3) (t : ℝ) :
    (axial axis t).mulVec (Pi.single (axis + 1) 1) = Real.cos (radians t) • Pi.single (axis + 1) 1 + Real.sin (radians t) • Pi.single (axis + 2) 1 := by
  funext i
  rw [mulVec_apply]
  fin_cases axis
  · fin_cases i <;> simp [axial]
  · fin_cases i <;> simp [axial]
  · fin_cases i <;> simp [axial]

/-- C95: turns about one axis add up, and a turn back undoes a turn. -/
theorem C95_axial_add (axis : Fin 3) (s t : ℝ) : axial axis s * axial axis t = axial axis (s + t) ∧ axial axis (-t) * axial axis t = 1 := by
  have key : ∀ s t, axial axis s * axial axis t = axial axis (s + t) := by
    intro s t
    fin_cases axis
    · show axial 0 s * axial 0 t = axial 0 (s + t)
      rw [axial_0, axial_0, axial_0, radians_add, Real.cos_add, Real.sin_add]
      ext i j
      rw [mul_apply]
      fin_cases i <;> fin_cases j <;> simp <;> ring
    · show axial 1 s * axial 1 t = axial 1 (s + t)
      rw [axial_1, axial_1, axial_1, radians_add, Real.cos_add, Real.sin_add]
      ext i j
      rw [mul_apply]
      fin_cases i <;> fin_cases j <;> simp <;> ring
    · show axial 2 s * axial 2 t = axial 2 (s + t)
      rw [axial_2, axial_2, axial_2, radians_add, Real.cos_add, Real.sin_add]
      ext i j
      rw [mul_apply]
      fin_cases i <;> fin_cases j <;> simp <;> ring
  refine ⟨key s t, ?_⟩
  rw [key, neg_add_cancel]
  have h0 : radians 0 = 0 := by unfold radians; ring
  ext i j
  unfold axial
  dsimp only
  rw [h0, Real.sin_zero, Real.cos_zero]
  fin_cases axis <;> fin_cases i <;> fin_cases j <;> simp [Matrix.one_apply]

/-- C95: the matrix for three angles turns about x, then z, then y. -/
theorem C95_three_turns (c a b : ℝ) : rotation3d c a b = axial 1 b * axial 2 a * axial 0 c := by
  rw [axial_0, axial_1, axial_2]
  ext i j
  rw [mul_apply, mul_apply, mul_apply, mul_apply]
  unfold rotation3d
  fin_cases i <;> fin_cases j <;> simp <;> ring

/-- C95: it is a rotation, and the reverse matrix undoes it, before or after. -/
theorem C95_reverse (c a b : ℝ) : Rotation (rotation3d c a b) ∧ reverseRotation3d c a b * rotation3d c a b = 1 ∧
    rotation3d c a b * reverseRotation3d c a b = 1 := by
  have : Rotation (rotation3d c a b) := by
    rw [C95_three_turns]
    exact ((axial_rotation 1 b).mul (axial_rotation 2 a)).mul (axial_rotation 0 c)
  exact ⟨this, this.1, this.inverse⟩

/-- C95: a rotated array has as many points, with the same distances and the same angles at the origin. -/
theorem C95_rotated_array {m : M3} (h : Rotation m) (ps : List V3) :
    (rotateArray m ps).length = ps.length ∧ ∀ (i j : Nat) p q, ps[i]? = some p → ps[j]? = some q →
      ∃ p' q', (rotateArray m ps)[i]? = some p' ∧ (rotateArray m ps)[j]? = some q' ∧ length (p' - q') = length (p - q) ∧ dot p' q' = dot p q := by
  unfold rotateArray
  refine ⟨List.length_map _, ?_⟩
  intro i j p q hp hq
  refine ⟨m.mulVec p, m.mulVec q, ?_, ?_, ?_, dot_mulVec h.1 p q⟩
  · rw [List.getElem?_map, hp]; rfl
  · rw [List.getElem?_map, hq]; rfl
  · rw [← Matrix.mulVec_sub, length_mulVec h.1]

/-- C95: turned for a cross section, the points lie as before, with depth kept, and the target direction along positive x. -/
theorem C95_cross_section {target : V3} (h : Across target) (ps : List V3) :
    ∃ m, Rotation m ∧ rotateAroundZ ps target = ps.map m.mulVec ∧ (∀ p, (m.mulVec p) 2 = p 2) ∧
      m.mulVec ![target 0, target 1, 0] = ![across target, 0, 0] := by
  refine ⟨_, axial_rotation 2 _, rfl, ?_, ?_⟩
  · intro p
    rw [mulVec_apply, axial_2]
    simp
  · have hA : Across ![target 0, target 1, 0] := h
    obtain ⟨hx, hy⟩ := C94_azimuth hA
    have hac : across ![target 0, target 1, 0] = across target := rfl
    rw [hac] at hx hy
    have hx' : target 0 = across target * Real.sin (radians (azimuth ![target 0, target 1, 0])) := hx
    have hy' : target 1 = across target * Real.cos (radians (azimuth ![target 0, target 1, 0])) := hy
    generalize azimuth ![target 0, target 1, 0] = az at hx' hy' ⊢
    have h90 : radians (az - 90) = radians az - Real.pi / 2 := by unfold radians; ring
    have hsc := Real.sin_sq_add_cos_sq (radians az)
    funext i
    rw [mulVec_apply, axial_2, h90, Real.cos_sub_pi_div_two, Real.sin_sub_pi_div_two]
    fin_cases i
    · simp
      rw [hx', hy']
      linear_combination (across target) * hsc
    · simp
      rw [hx', hy']
      ring
    · simp

/-- C95: the matrix made for a vector, not zero and not straight along negative z, is a rotation which takes the direction of the vector to the
positive z axis and the positive z axis to the direction of the vector. -/
theorem C95_vector_partial {v : V3} (h : v ≠ fun _ => 0) (hz : unitVector v 2 ≠ -1) :
    ∃ m, vectorToZ v = some m ∧ Rotation m ∧ m.mulVec (unitVector v) = ![0, 0, 1] ∧ m.mulVec ![0, 0, 1] = unitVector v := by
  have hu := dot_unit h
  have hz' : 1 + unitVector v 2 ≠ 0 := fun e => hz (by linarith)
  unfold vectorToZ
  rw [if_neg (length_pos h).ne', ← unit_of h]
  dsimp only
  rw [if_neg hz']
  unfold dot at hu
  generalize unitVector v = u at hu hz' ⊢
  have hm : (fun i j => if i.val < 2 then -(1 + !![0, 0, -u 0; 0, 0, -u 1; u 0, u 1, 0] +
      (1 / (1 + u 2)) • (!![0, 0, -u 0; 0, 0, -u 1; u 0, u 1, 0] * !![0, 0, -u 0; 0, 0, -u 1; u 0, u 1, 0]) : M3) i j
      else (1 + !![0, 0, -u 0; 0, 0, -u 1; u 0, u 1, 0] +
      (1 / (1 + u 2)) • (!![0, 0, -u 0; 0, 0, -u 1; u 0, u 1, 0] * !![0, 0, -u 0; 0, 0, -u 1; u 0, u 1, 0]) : M3) i j : M3) =
      !![u 0 * u 0 / (1 + u 2) - 1, u 0 * u 1 / (1 + u 2), u 0; u 0 * u 1 / (1 + u 2), u 1 * u 1 / (1 + u 2) - 1, u 1; u 0, u 1, u 2] := by
    ext i j
    simp only [Matrix.add_apply, Matrix.smul_apply, mul_apply, smul_eq_mul]
    fin_cases i <;> fin_cases j <;> simp <;> field_simp <;> linarith
  rw [hm]
  refine ⟨_, rfl, ⟨?_, ?_⟩, ?_, ?_⟩
  · ext i j
    rw [mul_apply]
    fin_cases i <;> fin_cases j <;> simp <;> field_simp <;> first
      | linear_combination (u 0 * u 1) * hu
      | linear_combination (u 0 * u 0) * hu
      | linear_combination (u 1 * u 1) * hu
      | linear_combination (u 0) * hu
      | linear_combination (u 1) * hu
      | linear_combination hu
  · rw [Matrix.det_fin_three]
    simp
    field_simp
    nlinarith
  · funext i
    rw [mulVec_apply]
    fin_cases i <;> simp <;> field_simp <;> first
      | linear_combination (u 0) * hu
      | linear_combination (u 1) * hu
      | linear_combination hu
  · funext i
    rw [mulVec_apply]
    fin_cases i <;> simp

/-- C95 does not hold for a vector along negative z: the matrix is not made of numbers. -/
theorem C95_vector_violated : ∃ v : V3, v ≠ (fun _ => 0) ∧ vectorToZ v = none := by
  have hl : length ![0, 0, -1] = 1 := by simp [length, dot]
  refine ⟨![0, 0, -1], fun e => by have := congrFun e 2; simp at this, ?_⟩
  unfold vectorToZ
  rw [hl, if_neg (by norm_num)]
  simp

/-! ## Tilting -/

theorem tilt_rotation (az dip : ℝ) : Rotation (tilt3d az dip) :=
  ((axial_rotation 2 (-az)).mul (axial_rotation 0 dip)).mul (axial_rotation 2 az)

theorem tilt_inverse (az dip : ℝ) : tilt3d az (-dip) * tilt3d az dip = 1 := by
  unfold tilt3d
  have h1 : axial 2 az * axial 2 (-az) = 1 := by
    have := (C95_axial_add 2 0 (-az)).2
    rwa [neg_neg] at this
  have h2 := (C95_axial_add 0 0 dip).2
  have h3 := (C95_axial_add 2 0 az).2
  calc axial 2 (-az) * axial 0 (-dip) * axial 2 az * (axial 2 (-az) * axial 0 dip * axial 2 az)
      = axial 2 (-az) * axial 0 (-dip) * (axial 2 az * axial 2 (-az)) * axial 0 dip * axial 2 az := by simp only [Matrix.mul_assoc]
    _ = axial 2 (-az) * (axial 0 (-dip) * axial 0 dip) * axial 2 az := by rw [h1, Matrix.mul_one, Matrix.mul_assoc (axial 2 (-az))]
    _ = 1 := by rw [h2, Matrix.mul_one, h3]

/-- horizontal direction with a bearing -/
def heading (az : ℝ) : V3 := ![Real.sin (radians az), Real.cos (radians az), 0]

theorem tilt_entries (az dip : ℝ) (w : V3) :
    (tilt3d az dip).mulVec w = w + ((Real.cos (radians dip) - 1) * dot (heading az) w - Real.sin (radians dip) * w 2) • heading az +
      (Real.sin (radians dip) * dot (heading az) w + (Real.cos (radians dip) - 1) * w 2) • ![0, 0, 1] := by
  unfold tilt3d
  rw [axial_0, axial_2, axial_2, radians_neg, Real.cos_neg, Real.sin_neg]
  have h := Real.sin_sq_add_cos_sq (radians az)
  funext i
  rw [mulVec_apply, mul_apply, mul_apply, mul_apply, mul_apply, mul_apply, mul_apply, mul_apply, mul_apply, mul_apply, mul_apply, mul_apply, mul_apply]
  simp only [Pi.add_apply, Pi.smul_apply, smul_eq_mul, dot, heading]
  fin_cases i
  · simp
    linear_combination (w 0) * h
  · simp
    linear_combination (w 1) * h
  · simp
    ring

theorem tiltPoints_eq (pivot : V3) (az dip : ℝ) (ps : List V3) :
    tiltPoints pivot az dip ps = ps.map fun p => (tilt3d az dip).mulVec (p - pivot) + pivot := by
  unfold tiltPoints rotateArray
  rw [List.map_map, List.map_map]
  rfl

theorem dot_heading (az : ℝ) : dot (heading az) (heading az) = 1 := by
  have h := Real.sin_sq_add_cos_sq (radians az)
  unfold dot heading
  simp
  linear_combination h

/-- C96: tilting keeps the pivot, all distances, and what is level with the pivot across the direction of the tilt; a point away from the pivot in
the direction of the tilt goes down (z increases) by the sine of the dip. -/
theorem C96_tilt (pivot : V3) (az dip : ℝ) (ps : List V3) :
    ∃ f : V3 → V3, tiltPoints pivot az dip ps = ps.map f ∧ f pivot = pivot ∧ (∀ p q, length (f p - f q) = length (p - q)) ∧
      (∀ d : ℝ, f (pivot + d • heading (az + 90)) = pivot + d • heading (az + 90)) ∧
      (∀ d : ℝ, f (pivot + d • heading az) = pivot + (d * Real.cos (radians dip)) • heading az + (d * Real.sin (radians dip)) • ![0, 0, 1]) := by
  refine ⟨_, tiltPoints_eq pivot az dip ps, ?_, ?_, ?_, ?_⟩
  · rw [sub_self, Matrix.mulVec_zero, zero_add]
  · intro p q
    rw [add_sub_add_right_eq_sub, ← Matrix.mulVec_sub, sub_sub_sub_cancel_right, length_mulVec (tilt_rotation az dip).1]
  · intro d
    have h90 : heading (az + 90) = ![Real.cos (radians az), -Real.sin (radians az), 0] := by
      have : radians (az + 90) = radians az + Real.pi / 2 := by unfold radians; ring
      unfold heading
      rw [this, Real.sin_add_pi_div_two, Real.cos_add_pi_div_two]
    rw [add_sub_cancel_left, tilt_entries]
    have e0 : dot (heading az) (d • heading (az + 90)) = 0 := by
      rw [h90]
      unfold dot heading
      simp
      ring
    have e1 : (d • heading (az + 90)) 2 = 0 := by
      rw [h90]
      simp
    rw [e0, e1]
    simp only [mul_zero, sub_zero, zero_smul, add_zero]
    exact add_comm _ _
  · intro d
    rw [add_sub_cancel_left, tilt_entries]
    have e0 : dot (heading az) (d • heading az) = d := by
      have := dot_smul 1 d (heading az) (heading az)
      rw [one_smul, dot_heading] at this
      rw [this]
      ring
    have e1 : (d • heading az) 2 = 0 := by
      unfold heading
      simp
    rw [e0, e1, mul_zero, mul_zero, sub_zero, add_zero]
    have e2 : (d * Real.cos (radians dip)) • heading az = d • heading az + ((Real.cos (radians dip) - 1) * d) • heading az := by
      rw [← add_smul]
      congr 1
      ring
    rw [e2, mul_comm d (Real.sin (radians dip))]
    abel

/-- C96: a tilt back undoes a tilt. -/
theorem C96_tilt_back (pivot : V3) (az dip : ℝ) (ps : List V3) : tiltPoints pivot az (-dip) (tiltPoints pivot az dip ps) = ps := by
  rw [tiltPoints_eq, tiltPoints_eq, List.map_map]
  refine (List.map_congr_left fun p _ => ?_).trans (List.map_id ps)
  show (tilt3d az (-dip)).mulVec ((tilt3d az dip).mulVec (p - pivot) + pivot - pivot) + pivot = p
  rw [add_sub_cancel_right, Matrix.mulVec_mulVec, tilt_inverse, Matrix.one_mulVec, sub_add_cancel]

/-! ## Projecting onto a plane -/

/-- the foot of the perpendicular from a point to the plane through `c` with the unit normal `n` -/
def foot (c n p : V3) : V3 := p - dot n (p - c) • n

/-- in the plane through `c` at right angles to `n` -/
def InPlane (c n p : V3) : Prop := dot n (p - c) = 0

/-- x and y reversed -/
def mirrored (n : V3) : V3 := ![-n 0, -n 1, n 2]

theorem tilt_mirrored {n : V3} (h : n ≠ fun _ => 0) : (tilt3d (azimuth n) (-inclination n)).mulVec (mirrored (unitVector n)) = ![0, 0, 1] := by
  have hu := C94_unit_of_both h
  rw [unitFrom_eq] at hu
  rw [← hu, tilt_entries, radians_neg, Real.cos_neg, Real.sin_neg]
  generalize radians (azimuth n) = t
  have h1 := Real.sin_sq_add_cos_sq (radians (azimuth n))
  have h2 := Real.sin_sq_add_cos_sq (radians (inclination n))
  have ed : dot (heading (azimuth n)) (mirrored (Direction (azimuth n) (inclination n))) = -Real.sin (radians (inclination n)) := by
    unfold dot heading mirrored Direction
    simp
    linear_combination (-Real.sin (radians (inclination n))) * h1
  have ez : mirrored (Direction (azimuth n) (inclination n)) 2 = Real.cos (radians (inclination n)) := rfl
  rw [ed, ez]
  funext i
  simp only [Pi.add_apply, Pi.smul_apply, smul_eq_mul]
  fin_cases i
  · show -(Real.sin (radians (inclination n)) * Real.sin (radians (azimuth n))) + _ * Real.sin (radians (azimuth n)) + _ * (0 : ℝ) = 0
    ring
  · show -(Real.sin (radians (inclination n)) * Real.cos (radians (azimuth n))) + _ * Real.cos (radians (azimuth n)) + _ * (0 : ℝ) = 0
    ring
  · show Real.cos (radians (inclination n)) + _ * (0 : ℝ) + _ * (1 : ℝ) = 1
    linear_combination h2

/-- C97: what projecting onto a plane does: each point goes to the foot of the perpendicular to the plane through the given point with a normal which
is the given one with x and y reversed. -/
theorem project_eq {plane n : V3} (h : n ≠ fun _ => 0) (ps : List V3) :
    projectOntoPlane plane n ps = ps.map (foot plane (mirrored (unitVector n))) := by
  unfold projectOntoPlane
  dsimp only
  rw [tiltPoints_eq, tiltPoints_eq, List.map_map, List.map_map]
  refine List.map_congr_left fun p _ => ?_
  show (tilt3d (azimuth n) (inclination n)).mulVec
    (Function.update ((tilt3d (azimuth n) (-inclination n)).mulVec (p - plane) + plane) 2 (plane 2) - plane) + plane = _
  have hrot := tilt_rotation (azimuth n) (-inclination n)
  have hm := tilt_mirrored h
  have hinv : tilt3d (azimuth n) (inclination n) * tilt3d (azimuth n) (-inclination n) = 1 := by
    have := tilt_inverse (azimuth n) (-inclination n)
    rwa [neg_neg] at this
  generalize tilt3d (azimuth n) (-inclination n) = T at *
  generalize tilt3d (azimuth n) (inclination n) = S at *
  have hz : (T.mulVec (p - plane)) 2 = dot (mirrored (unitVector n)) (p - plane) := by
    rw [← dot_mulVec hrot.1, hm]
    unfold dot
    simp
  have hup : Function.update (T.mulVec (p - plane) + plane) 2 (plane 2) - plane =
      T.mulVec (p - plane) - dot (mirrored (unitVector n)) (p - plane) • T.mulVec (mirrored (unitVector n)) := by
    rw [hm, ← hz]
    funext i
    fin_cases i
    · simp [Function.update]
    · simp [Function.update]
    · simp [Function.update]
  rw [hup, ← Matrix.mulVec_smul, ← Matrix.mulVec_sub, Matrix.mulVec_mulVec, hinv, Matrix.one_mulVec]
  unfold foot
  abel

/-- C97: onto a plane which is level or upright, points are projected to the feet of the perpendiculars. -/
theorem C97_project_partial {plane n : V3} (h : n ≠ fun _ => 0) (hn : n 2 = 0 ∨ n 0 = 0 ∧ n 1 = 0) (ps : List V3) :
    projectOntoPlane plane n ps = ps.map (foot plane (unitVector n)) := by
  rw [project_eq h]
  refine List.map_congr_left fun p _ => ?_
  have hu := unit_of h
  rcases hn with h2 | ⟨h0, h1⟩
  · have : mirrored (unitVector n) = -unitVector n := by
      funext i
      fin_cases i
      · rfl
      · rfl
      · show unitVector n 2 = -unitVector n 2
        rw [hu]
        simp [h2]
    rw [this]
    unfold foot
    have e : dot (-unitVector n) (p - plane) = -dot (unitVector n) (p - plane) := by
      unfold dot
      simp only [Pi.neg_apply]
      ring
    rw [e, neg_smul_neg]
  · have : mirrored (unitVector n) = unitVector n := by
      funext i
      fin_cases i
      · show -unitVector n 0 = unitVector n 0
        rw [hu]
        simp [h0]
      · show -unitVector n 1 = unitVector n 1
        rw [hu]
        simp [h1]
      · rfl
    rw [this]

/-- C97: in any case points are moved to the feet of perpendiculars to a plane through the given point, and points of that plane are kept. -/
theorem C97_mirrored_partial {plane n : V3} (h : n ≠ fun _ => 0) (ps : List V3) :
    projectOntoPlane plane n ps = ps.map (foot plane (mirrored (unitVector n))) ∧
      ∀ p ∈ projectOntoPlane plane n ps, InPlane plane (mirrored n) p := by
  rw [project_eq h]
  refine ⟨rfl, ?_⟩
  intro p hp
  obtain ⟨q, -, rfl⟩ := List.mem_map.mp hp
  have hu := dot_unit h
  have hl := (length_pos h).ne'
  have hmm : mirrored n = length n • mirrored (unitVector n) := by
    rw [unit_of h]
    funext i
    fin_cases i
    · show -n 0 = length n * -(1 / length n * n 0)
      field_simp
    · show -n 1 = length n * -(1 / length n * n 1)
      field_simp
    · show n 2 = length n * (1 / length n * n 2)
      field_simp
  have hmu : dot (mirrored (unitVector n)) (mirrored (unitVector n)) = 1 := by
    rw [← hu]
    unfold dot mirrored
    simp
  unfold InPlane
  rw [hmm]
  generalize mirrored (unitVector n) = m at *
  unfold foot dot at *
  simp only [Pi.smul_apply, Pi.sub_apply, smul_eq_mul]
  linear_combination (-length n * (m 0 * (q 0 - plane 0) + m 1 * (q 1 - plane 1) + m 2 * (q 2 - plane 2))) * hmu

/-- C97 does not hold for a sloping plane: a point is moved to one which is not in the plane. -/
theorem C97_project_violated : ∃ (plane n p q : V3), n ≠ (fun _ => 0) ∧ projectOntoPlane plane n [p] = [q] ∧ ¬ InPlane plane n q := by
  have hn : (![1, 1, 1] : V3) ≠ fun _ => 0 := fun e => by have := congrFun e 0; simp at this
  have hl := length_sq ![1, 1, 1]
  refine ⟨fun _ => 0, ![1, 1, 1], ![0, 0, 1], foot (fun _ => 0) (mirrored (unitVector ![1, 1, 1])) ![0, 0, 1], hn, project_eq hn _, ?_⟩
  intro h
  have hl' := (length_pos hn).ne'
  rw [unit_of hn] at h
  have hd : dot ![1, 1, 1] ![1, 1, 1] = 3 := by unfold dot; simp; norm_num
  rw [hd] at hl
  unfold InPlane foot mirrored dot at h
  simp at h
  generalize length ![1, 1, 1] = l at *
  have hinv : l⁻¹ * l⁻¹ = 1 / 3 := by
    rw [← mul_inv, hl]
    norm_num
  ring_nf at h
  rw [show l⁻¹ ^ 2 = l⁻¹ * l⁻¹ by ring, hinv] at h
  norm_num at h

/-! ## Examples -/

/-- for `C95_vector_partial` -/
example : (![0, 0, 1] : V3) ≠ (fun _ => 0) ∧ unitVector ![0, 0, 1] 2 ≠ -1 := by
  have hl : length ![0, 0, 1] = 1 := by simp [length, dot]
  refine ⟨fun e => by have := congrFun e 2; simp at this, ?_⟩
  unfold unitVector
  rw [hl, if_neg (by norm_num)]
  simp
  norm_num

/-- for `C97_project_partial` -/
example : projectOntoPlane ![1, 2, 3] ![0, 0, 2] [![7, 6, 5]] = [![7, 6, 3]] := by
  have hn : (![0, 0, 2] : V3) ≠ fun _ => 0 := fun e => by have := congrFun e 2; simp at this
  rw [C97_project_partial hn (Or.inr ⟨rfl, rfl⟩)]
  have hl : length ![0, 0, 2] = 2 := by
    unfold length dot
    rw [show (![0, 0, 2] : V3) 0 * (![0, 0, 2] : V3) 0 + (![0, 0, 2] : V3) 1 * (![0, 0, 2] : V3) 1 + (![0, 0, 2] : V3) 2 * (![0, 0, 2] : V3) 2 = 2 * 2 by simp]
    exact Real.sqrt_mul_self (by norm_num)
  have hu : unitVector ![0, 0, 2] = ![0, 0, 1] := by
    rw [unit_of hn, hl]
    funext i
    fin_cases i <;> simp
  rw [hu]
  show [foot _ _ _] = _
  congr 1
  unfold foot dot
  funext i
  fin_cases i <;> simp

end

end Verif.Rotate
