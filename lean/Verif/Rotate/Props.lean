import Verif.Rotate.Lemmas

/-! # C94: bearings and inclinations -/

namespace Verif.Rotate
open Verif.Wells.Survey (V3 radians degrees rotation3d)

noncomputable section

/-- the direction with a bearing (from north, clockwise to the east) and an inclination (from the z axis), in degrees -/
def Direction (az inc : ℝ) : V3 :=
  ![Real.sin (radians inc) * Real.sin (radians az), Real.sin (radians inc) * Real.cos (radians az), Real.cos (radians inc)]

/-- the length of the horizontal part -/
def across (v : V3) : ℝ := Real.sqrt (v 0 * v 0 + v 1 * v 1)

/-- not vertical -/
def Across (v : V3) : Prop := v 0 ≠ 0 ∨ v 1 ≠ 0

theorem across_sq (v : V3) : across v * across v = v 0 * v 0 + v 1 * v 1 :=
  Real.mul_self_sqrt (by nlinarith [mul_self_nonneg (v 0), mul_self_nonneg (v 1)])

theorem across_pos {v : V3} (h : Across v) : 0 < across v := by
  refine Real.sqrt_pos.mpr ?_
  have e0 := mul_self_nonneg (v 0)
  have e1 := mul_self_nonneg (v 1)
  rcases h with h | h
  · have := mul_self_pos.mpr h
    linarith
  · have := mul_self_pos.mpr h
    linarith

theorem flat_length (v : V3) : length ![v 0, v 1, 0] = across v := by
  unfold length across dot
  simp

theorem flat_ne {v : V3} (h : Across v) : (![v 0, v 1, 0] : V3) ≠ fun _ => 0 := by
  intro e
  have e0 := congrFun e 0
  have e1 := congrFun e 1
  simp at e0 e1
  rcases h with h | h
  · exact h e0
  · exact h e1

theorem flat_unit {v : V3} (h : Across v) : unitVector ![v 0, v 1, 0] 0 = v 0 / across v ∧ unitVector ![v 0, v 1, 0] 1 = v 1 / across v := by
  rw [unit_of (flat_ne h), flat_length]
  simp only [Pi.smul_apply, smul_eq_mul, Matrix.cons_val_zero, Matrix.cons_val_one]
  constructor <;> ring

theorem flat_unit' {v : V3} (h : Across v) :
    (v 0 / across v) * (v 0 / across v) + (v 1 / across v) * (v 1 / across v) = 1 := by
  have h1 := across_sq v
  have h2 := (across_pos h).ne'
  field_simp
  linear_combination -h1

/-- angle of which the bearing is made, before the full turn is added -/
theorem bearing_spec {x y : ℝ} (h : x * x + y * y = 1) :
    let r := if |y| ≤ |x| then (if x < 0 then Real.pi / 2 - Real.arctan (y / x) + Real.pi else Real.pi / 2 - Real.arctan (y / x))
      else (if y < 0 then Real.arctan (x / y) + Real.pi else Real.arctan (x / y))
    Real.sin r = x ∧ Real.cos r = y ∧ -(Real.pi / 2) < r ∧ r < 2 * Real.pi := by
  have hp := Real.pi_pos
  by_cases hxy : |y| ≤ |x|
  · have hx : x ≠ 0 := by
      rintro rfl
      rw [abs_zero] at hxy
      have : y = 0 := abs_nonpos_iff.mp hxy
      rw [this] at h
      norm_num at h
    simp only [if_pos hxy]
    have b1 := Real.neg_pi_div_two_lt_arctan (y / x)
    have b2 := Real.arctan_lt_pi_div_two (y / x)
    by_cases h0 : x < 0
    · simp only [if_pos h0]
      obtain ⟨hc, hs⟩ := arctan_of_unit_neg h h0
      refine ⟨?_, ?_, by linarith, by linarith⟩
      · rw [Real.sin_add_pi, Real.sin_pi_div_two_sub, hc, neg_neg]
      · rw [Real.cos_add_pi, Real.cos_pi_div_two_sub, hs, neg_neg]
    · simp only [if_neg h0]
      obtain ⟨hc, hs⟩ := arctan_of_unit h (lt_of_le_of_ne (not_lt.mp h0) (Ne.symm hx))
      refine ⟨?_, ?_, by linarith, by linarith⟩
      · rw [Real.sin_pi_div_two_sub, hc]
      · rw [Real.cos_pi_div_two_sub, hs]
  · have hy : y ≠ 0 := by
      rintro rfl
      rw [abs_zero] at hxy
      exact hxy (abs_nonneg _)
    simp only [if_neg hxy]
    have b1 := Real.neg_pi_div_two_lt_arctan (x / y)
    have b2 := Real.arctan_lt_pi_div_two (x / y)
    have h' : y * y + x * x = 1 := by linarith
    by_cases h0 : y < 0
    · simp only [if_pos h0]
      obtain ⟨hc, hs⟩ := arctan_of_unit_neg h' h0
      refine ⟨?_, ?_, by linarith, by linarith⟩
      · rw [Real.sin_add_pi, hs, neg_neg]
      · rw [Real.cos_add_pi, hc, neg_neg]
    · simp only [if_neg h0]
      obtain ⟨hc, hs⟩ := arctan_of_unit h' (lt_of_le_of_ne (not_lt.mp h0) (Ne.symm hy))
      exact ⟨hs, hc, by linarith, by linarith⟩

theorem azimuth_spec {v : V3} (h : Across v) :
    ∃ r, azimuth v = degrees r ∧ 0 ≤ r ∧ r < 2 * Real.pi ∧ Real.sin r = v 0 / across v ∧ Real.cos r = v 1 / across v := by
  obtain ⟨e0, e1⟩ := flat_unit h
  have hu := flat_unit' h
  unfold azimuth
  dsimp only
  rw [e0, e1]
  generalize v 0 / across v = x at hu ⊢
  generalize v 1 / across v = y at hu ⊢
  rw [if_neg (fun ⟨hx, hy⟩ => by rw [hx, hy] at hu; norm_num at hu)]
  obtain ⟨h1, h2, h3, h4⟩ := bearing_spec hu
  generalize (if |y| ≤ |x| then (if x < 0 then Real.pi / 2 - Real.arctan (y / x) + Real.pi else Real.pi / 2 - Real.arctan (y / x))
      else (if y < 0 then Real.arctan (x / y) + Real.pi else Real.arctan (x / y))) = r at h1 h2 h3 h4 ⊢
  have hp := Real.pi_pos
  refine ⟨_, rfl, ?_, ?_, ?_, ?_⟩
  · split
    · linarith
    · linarith
  · split
    · linarith
    · linarith
  · split
    · rw [Real.sin_add_two_pi, h1]
    · exact h1
  · split
    · rw [Real.cos_add_two_pi, h2]
    · exact h2

/-- C94: a bearing is at least nought and less than 360 degrees. -/
theorem C94_azimuth_range (v : V3) : 0 ≤ azimuth v ∧ azimuth v < 360 := by
  by_cases h : Across v
  · obtain ⟨r, e, h1, h2, -, -⟩ := azimuth_spec h
    rw [e]
    refine ⟨?_, ?_⟩
    · rw [← degrees_zero]
      exact degrees_le h1
    · rw [← degrees_two_pi]
      exact degrees_lt h2
  · unfold Across at h
    push Not at h
    unfold azimuth
    dsimp only
    have hz : (![v 0, v 1, 0] : V3) = fun _ => 0 := by
      funext i
      fin_cases i
      · exact h.1
      · exact h.2
      · rfl
    have hu : unitVector ![v 0, v 1, 0] = fun _ => 0 := by
      rw [hz]
      unfold unitVector
      rw [if_pos (length_eq_zero.mpr rfl)]
    rw [hu, if_pos ⟨rfl, rfl⟩]
    norm_num

/-- C94: the bearing of a vector which is not vertical is its direction: going along it (north for 0, east for 90) over the horizontal length
of the vector gives its x and y. -/
theorem C94_azimuth {v : V3} (h : Across v) :
    v 0 = across v * Real.sin (radians (azimuth v)) ∧ v 1 = across v * Real.cos (radians (azimuth v)) := by
  obtain ⟨r, e, -, -, h1, h2⟩ := azimuth_spec h
  have h3 := (across_pos h).ne'
  rw [e, radians_degrees, h1, h2]
  constructor <;> field_simp

/-- C94: the horizontal unit vector for the bearing of a vector is the unit vector of its horizontal part. -/
theorem C94_unit_of_azimuth {v : V3} (h : Across v) : unitFromAzimuth (azimuth v) = unitVector ![v 0, v 1, 0] := by
  obtain ⟨r, e, h0, h1, h2, h3⟩ := azimuth_spec h
  obtain ⟨e0, e1⟩ := flat_unit h
  unfold unitFromAzimuth
  rw [radians_fmod, sin_fmod, cos_fmod, e, radians_degrees, h2, h3]
  funext i
  fin_cases i
  · exact e0.symm
  · exact e1.symm
  · rw [unit_of (flat_ne h)]
    simp

/-- C94: the bearing of the unit vector for a bearing is that bearing, brought to less than a full turn. -/
theorem C94_azimuth_of_unit (az : ℝ) : azimuth (unitFromAzimuth az) = fmod az 360 := by
  have hsc := Real.sin_sq_add_cos_sq (radians (fmod az 360))
  have hac : Across (unitFromAzimuth az) := by
    by_contra hn
    unfold Across at hn
    push Not at hn
    have e0 : Real.sin (radians (fmod az 360)) = 0 := hn.1
    have e1 : Real.cos (radians (fmod az 360)) = 0 := hn.2
    rw [e0, e1] at hsc
    norm_num at hsc
  have h1 : across (unitFromAzimuth az) = 1 := by
    have : unitFromAzimuth az 0 * unitFromAzimuth az 0 + unitFromAzimuth az 1 * unitFromAzimuth az 1 = 1 := by
      show Real.sin (radians (fmod az 360)) * Real.sin (radians (fmod az 360)) + Real.cos (radians (fmod az 360)) * Real.cos (radians (fmod az 360)) = 1
      linear_combination hsc
    unfold across
    rw [this, Real.sqrt_one]
  obtain ⟨r, e, h2, h3, h4, h5⟩ := azimuth_spec hac
  rw [e]
  rw [h1, div_one] at h4 h5
  have e0 : Real.sin r = Real.sin (radians (fmod az 360)) := h4
  have e1 : Real.cos r = Real.cos (radians (fmod az 360)) := h5
  have hp := Real.pi_pos
  rw [radians_fmod] at e0 e1
  have := angle_unique h2 h3 (fmod_nonneg (by linarith)) (fmod_lt (by linarith)) e0 e1
  rw [this, ← radians_fmod, degrees_radians]

/-- C94: the function for arrays gives each vector the same bearing, other than vertical vectors. -/
theorem C94_azimuths_partial {v : V3} (h : Across v) : azimuthOfArray v = some (azimuth v) := by
  obtain ⟨r, e, h0, h1, h2, h3⟩ := azimuth_spec h
  have hne : length ![v 0, v 1, 0] ≠ 0 := fun e => flat_ne h (length_eq_zero.mp e)
  have hu : unitVectorOfArray ![v 0, v 1, 0] = unitVector ![v 0, v 1, 0] := by
    unfold unitVectorOfArray unitVector
    rw [if_neg hne, if_neg hne]
  obtain ⟨e0, e1⟩ := flat_unit h
  have hu' := flat_unit' h
  rw [e]
  unfold azimuthOfArray
  dsimp only
  rw [hu, e0, e1]
  clear e0 e1
  generalize v 0 / across v = x at h2 hu' ⊢
  generalize v 1 / across v = y at h3 hu' ⊢
  obtain ⟨b1, b2, -, -⟩ := bearing_spec hu'
  have hp := Real.pi_pos
  have hmain : ∀ s, Real.sin s = x → Real.cos s = y → degrees (fmod s (2 * Real.pi)) = degrees r := by
    intro s hs hc
    rw [angle_unique (fmod_nonneg (a := s) (by linarith)) (fmod_lt (by linarith)) h0 h1 (by rw [sin_fmod, hs, h2]) (by rw [cos_fmod, hc, h3])]
  by_cases hxy : |y| ≤ |x|
  · have hx : x ≠ 0 := by
      rintro rfl
      rw [abs_zero] at hxy
      have : y = 0 := abs_nonpos_iff.mp hxy
      rw [this] at hu'
      norm_num at hu'
    rw [if_pos hxy] at b1 b2 ⊢
    unfold nanDiv
    rw [if_neg hx]
    by_cases hx0 : x < 0
    · rw [if_pos hx0] at b1 b2 ⊢
      have e' : Real.pi * 3 / 2 - Real.arctan (y / x) = Real.pi / 2 - Real.arctan (y / x) + Real.pi := by ring
      simp only [Option.map_some]
      rw [e', hmain _ b1 b2]
    · rw [if_neg hx0] at b1 b2 ⊢
      simp only [Option.map_some]
      rw [hmain _ b1 b2]
  · have hy : y ≠ 0 := by
      rintro rfl
      rw [abs_zero] at hxy
      exact hxy (abs_nonneg _)
    rw [if_neg hxy] at b1 b2 ⊢
    unfold nanDiv
    rw [if_neg hy]
    by_cases hy0 : y < 0
    · rw [if_pos hy0] at b1 b2 ⊢
      simp only [Option.map_some]
      rw [add_comm, hmain _ b1 b2]
    · rw [if_neg hy0] at b1 b2 ⊢
      simp only [Option.map_some]
      rw [hmain _ b1 b2]

/-- C94 does not hold for a vertical vector in an array: its bearing is not a number, that of the vector by itself is nought. -/
theorem C94_azimuths_violated : ∃ v : V3, azimuth v = 0 ∧ azimuthOfArray v = none := by
  have hz : (![(![0, 0, 1] : V3) 0, (![0, 0, 1] : V3) 1, 0] : V3) = fun _ => 0 := by
    funext i
    fin_cases i <;> rfl
  refine ⟨![0, 0, 1], ?_, ?_⟩
  · unfold azimuth
    dsimp only
    rw [hz]
    have hu : unitVector (fun _ => 0) = fun _ => 0 := if_pos (length_eq_zero.mpr rfl)
    rw [hu, if_pos ⟨rfl, rfl⟩]
  · unfold azimuthOfArray
    dsimp only
    rw [hz]
    have hu : unitVectorOfArray (fun _ => 0) = fun _ => 0 := if_pos (length_eq_zero.mpr rfl)
    rw [hu]
    simp [nanDiv]

/-! ## Inclinations -/

theorem unit_z_bounds (v : V3) : -1 ≤ unitVector v 2 ∧ unitVector v 2 ≤ 1 := by
  by_cases h : v = fun _ => 0
  · have : unitVector v = fun _ => 0 := by rw [h]; exact if_pos (length_eq_zero.mpr rfl)
    rw [this]
    norm_num
  · have := dot_unit h
    unfold dot at this
    have hsq : unitVector v 2 * unitVector v 2 ≤ 1 := by nlinarith [mul_self_nonneg (unitVector v 0), mul_self_nonneg (unitVector v 1)]
    exact abs_le.mp (abs_le_one_iff_mul_self_le_one.mpr hsq)

/-- C94: an inclination is between nought and 180 degrees, and its cosine gives the z value. -/
theorem C94_inclination (v : V3) : 0 ≤ inclination v ∧ inclination v ≤ 180 ∧ v 2 = length v * Real.cos (radians (inclination v)) := by
  obtain ⟨b1, b2⟩ := unit_z_bounds v
  unfold inclination
  refine ⟨?_, ?_, ?_⟩
  · rw [← degrees_zero]
    exact degrees_le (Real.arccos_nonneg _)
  · rw [← degrees_pi]
    exact degrees_le (Real.arccos_le_pi _)
  · rw [radians_degrees, Real.cos_arccos b1 b2]
    by_cases h : v = fun _ => 0
    · rw [length_eq_zero.mpr h, zero_mul, h]
    · rw [unit_of h]
      have := (length_pos h).ne'
      simp only [Pi.smul_apply, smul_eq_mul]
      field_simp

theorem sin_inclination {v : V3} (h : v ≠ fun _ => 0) : length v * Real.sin (radians (inclination v)) = across v := by
  obtain ⟨h1, h2, h3⟩ := C94_inclination v
  have hs : 0 ≤ Real.sin (radians (inclination v)) := by
    unfold inclination
    rw [radians_degrees]
    exact Real.sin_nonneg_of_nonneg_of_le_pi (Real.arccos_nonneg _) (Real.arccos_le_pi _)
  have hl := length_sq v
  have ha := across_sq v
  have hc := Real.sin_sq_add_cos_sq (radians (inclination v))
  have e : (length v * Real.sin (radians (inclination v))) * (length v * Real.sin (radians (inclination v))) = across v * across v := by
    rw [ha]
    unfold dot at hl
    rw [h3] at hl
    linear_combination (length v * length v) * hc + hl
  have n1 : 0 ≤ length v * Real.sin (radians (inclination v)) := mul_nonneg (length_nonneg v) hs
  have n2 : 0 ≤ across v := Real.sqrt_nonneg _
  rcases mul_self_eq_mul_self_iff.mp e with h | h
  · exact h
  · linarith

theorem unitFrom_eq (az inc : ℝ) : unitFromAzimuthAndInclination az inc = Direction az inc := by
  unfold unitFromAzimuthAndInclination Direction
  have h1 : radians (180 - az) = Real.pi - radians az := by unfold radians; ring
  have h0 : radians 0 = 0 := by unfold radians; ring
  funext i
  rw [mulVec_apply]
  unfold rotation3d
  rw [h1, h0, Real.sin_pi_sub, Real.cos_pi_sub, Real.sin_zero, Real.cos_zero]
  fin_cases i
  · simp; ring
  · simp
  · simp

/-- C94: the unit vector for a bearing and an inclination points in that direction. -/
theorem C94_unit_from_both (az inc : ℝ) : unitFromAzimuthAndInclination az inc = Direction az inc := unitFrom_eq az inc

/-- C94: the unit vector for the bearing and the inclination of a vector other than zero is the unit vector of that vector. -/
theorem C94_unit_of_both {v : V3} (h : v ≠ fun _ => 0) : unitFromAzimuthAndInclination (azimuth v) (inclination v) = unitVector v := by
  rw [unitFrom_eq, unit_of h]
  have hl := (length_pos h).ne'
  have hs := sin_inclination h
  have hz := (C94_inclination v).2.2
  by_cases ha : Across v
  · obtain ⟨hx, hy⟩ := C94_azimuth ha
    funext i
    fin_cases i
    · show Real.sin (radians (inclination v)) * Real.sin (radians (azimuth v)) = 1 / length v * v 0
      rw [hx, ← hs]; field_simp
    · show Real.sin (radians (inclination v)) * Real.cos (radians (azimuth v)) = 1 / length v * v 1
      rw [hy, ← hs]; field_simp
    · show Real.cos (radians (inclination v)) = 1 / length v * v 2
      rw [hz]; field_simp
  · unfold Across at ha
    push Not at ha
    have hac : across v = 0 := by
      unfold across
      rw [ha.1, ha.2]
      simp
    rw [hac] at hs
    have hs0 : Real.sin (radians (inclination v)) = 0 := by
      rcases mul_eq_zero.mp hs with h | h
      · exact absurd h hl
      · exact h
    funext i
    fin_cases i
    · show Real.sin (radians (inclination v)) * Real.sin (radians (azimuth v)) = 1 / length v * v 0
      rw [hs0, ha.1]; ring
    · show Real.sin (radians (inclination v)) * Real.cos (radians (azimuth v)) = 1 / length v * v 1
      rw [hs0, ha.2]; ring
    · show Real.cos (radians (inclination v)) = 1 / length v * v 2
      rw [hz]; field_simp

theorem length_direction (az inc : ℝ) : length (Direction az inc) = 1 := by
  have : dot (Direction az inc) (Direction az inc) = 1 := by
    show Real.sin (radians inc) * Real.sin (radians az) * (Real.sin (radians inc) * Real.sin (radians az)) +
      Real.sin (radians inc) * Real.cos (radians az) * (Real.sin (radians inc) * Real.cos (radians az)) + Real.cos (radians inc) * Real.cos (radians inc) = 1
    have h1 := Real.sin_sq_add_cos_sq (radians az)
    have h2 := Real.sin_sq_add_cos_sq (radians inc)
    linear_combination (Real.sin (radians inc)) ^ 2 * h1 + h2
  unfold length
  rw [this, Real.sqrt_one]

/-- C94: and the other way round, the inclination of the unit vector for a bearing and an inclination is that inclination, and its bearing
that bearing, brought to less than a full turn. -/
theorem C94_both_of_unit (az : ℝ) {inc : ℝ} (h0 : 0 ≤ inc) (h1 : inc ≤ 180) :
    inclination (unitFromAzimuthAndInclination az inc) = inc ∧
      (0 < inc → inc < 180 → azimuth (unitFromAzimuthAndInclination az inc) = fmod az 360) := by
  have hp := Real.pi_pos
  have r0 : 0 ≤ radians inc := by unfold radians; positivity
  have r1 : radians inc ≤ Real.pi := by
    unfold radians
    have : inc * Real.pi ≤ 180 * Real.pi := by gcongr
    linarith
  rw [unitFrom_eq]
  have hl := length_direction az inc
  have hne : Direction az inc ≠ fun _ => 0 := by
    intro e
    rw [length_eq_zero.mpr e] at hl
    norm_num at hl
  constructor
  · unfold inclination
    rw [unit_of hne, hl]
    show degrees (Real.arccos (1 / 1 * Real.cos (radians inc))) = inc
    rw [div_one, one_mul, Real.arccos_cos r0 r1, degrees_radians]
  · intro g0 g1
    have hs : 0 < Real.sin (radians inc) := by
      refine Real.sin_pos_of_pos_of_lt_pi ?_ ?_
      · unfold radians; positivity
      · unfold radians
        have : inc * Real.pi < 180 * Real.pi := by gcongr
        linarith
    have hsc := Real.sin_sq_add_cos_sq (radians az)
    have hac : across (Direction az inc) = Real.sin (radians inc) := by
      have : Direction az inc 0 * Direction az inc 0 + Direction az inc 1 * Direction az inc 1 = Real.sin (radians inc) * Real.sin (radians inc) := by
        show Real.sin (radians inc) * Real.sin (radians az) * (Real.sin (radians inc) * Real.sin (radians az)) +
          Real.sin (radians inc) * Real.cos (radians az) * (Real.sin (radians inc) * Real.cos (radians az)) = _
        linear_combination (Real.sin (radians inc)) ^ 2 * hsc
      unfold across
      rw [this, Real.sqrt_mul_self hs.le]
    have hA : Across (Direction az inc) := by
      by_contra hn
      unfold Across at hn
      push Not at hn
      have : across (Direction az inc) = 0 := by
        unfold across
        rw [hn.1, hn.2]
        simp
      rw [hac] at this
      linarith
    obtain ⟨r, e, b0, b1, b2, b3⟩ := azimuth_spec hA
    rw [e]
    rw [hac] at b2 b3
    have e0 : Real.sin r = Real.sin (radians az) := by
      rw [b2]
      show Real.sin (radians inc) * Real.sin (radians az) / Real.sin (radians inc) = _
      field_simp
    have e1 : Real.cos r = Real.cos (radians az) := by
      rw [b3]
      show Real.sin (radians inc) * Real.cos (radians az) / Real.sin (radians inc) = _
      field_simp
    have := angle_unique b0 b1 (fmod_nonneg (a := radians az) (by linarith)) (fmod_lt (by linarith)) (by rw [sin_fmod, e0]) (by rw [cos_fmod, e1])
    rw [this, ← radians_fmod, degrees_radians]

/-- C94: the angle between two vectors other than zero is between nought and half a turn, and its cosine is the dot product over the lengths. -/
theorem C94_angle {a b : V3} (ha : a ≠ fun _ => 0) (hb : b ≠ fun _ => 0) :
    0 ≤ radiansDifference a b ∧ radiansDifference a b ≤ Real.pi ∧ dot a b = length a * length b * Real.cos (radiansDifference a b) := by
  have ua := dot_unit ha
  have ub := dot_unit hb
  have hcs : dot (unitVector a) (unitVector b) * dot (unitVector a) (unitVector b) ≤ 1 := by
    have : dot (unitVector a) (unitVector b) * dot (unitVector a) (unitVector b) ≤
        dot (unitVector a) (unitVector a) * dot (unitVector b) (unitVector b) := by
      unfold dot
      nlinarith [mul_self_nonneg (unitVector a 0 * unitVector b 1 - unitVector a 1 * unitVector b 0),
        mul_self_nonneg (unitVector a 1 * unitVector b 2 - unitVector a 2 * unitVector b 1),
        mul_self_nonneg (unitVector a 2 * unitVector b 0 - unitVector a 0 * unitVector b 2)]
    rwa [ua, ub, one_mul] at this
  obtain ⟨l1, l2⟩ := abs_le.mp (abs_le_one_iff_mul_self_le_one.mpr hcs)
  unfold radiansDifference
  rw [max_eq_right l1, min_eq_right l2]
  refine ⟨Real.arccos_nonneg _, Real.arccos_le_pi _, ?_⟩
  rw [Real.cos_arccos l1 l2, unit_of ha, unit_of hb, dot_smul]
  have h1 := (length_pos ha).ne'
  have h2 := (length_pos hb).ne'
  field_simp

/-! ## Unit vectors of arrays -/

/-- C94: the unit vector in an array of two dimensions is that of the vector by itself. -/
theorem C94_unit_vectors (v : V3) : unitVectorOfArray v = unitVector v := by
  unfold unitVectorOfArray unitVector
  by_cases h : length v = 0
  · rw [if_pos h, if_pos h]
    exact (length_eq_zero.mp h).symm
  · rw [if_neg h, if_neg h]

/-- C94 does not hold for an array of three dimensions with a zero vector in it: other vectors are made zero too. -/
theorem C94_unit_vectors_3d_violated : ∃ (a : List (List V3)) (r : List (List V3)), unitVectors3 a = .ok r ∧
    ∃ (i j : Nat) (v : V3), (a[i]?.bind fun l => l[j]?) = some v ∧ (r[i]?.bind fun l => l[j]?) ≠ some (unitVector v) := by
  have l1 : length ![1, 0, 0] = 1 := by simp [length, dot]
  have l0 : length (fun _ => (0 : ℝ)) = 0 := length_eq_zero.mpr rfl
  refine ⟨[[fun _ => 0, ![1, 0, 0]]], [[fun _ => 0, fun _ => 0]], ?_, 0, 1, ![1, 0, 0], rfl, ?_⟩
  · unfold unitVectors3
    simp [l0, l1]
  · show some (fun _ => (0 : ℝ)) ≠ some (unitVector ![1, 0, 0])
    intro e
    have e' := Option.some.inj e
    have : unitVector ![1, 0, 0] 0 = 1 := by
      unfold unitVector
      rw [l1, if_neg (by norm_num)]
      simp
    rw [← e'] at this
    norm_num at this

/-! ## Examples -/

example : Across ![3, 4, 12] := Or.inl (by norm_num)

example : across ![3, 4, 12] = 5 := by
  unfold across
  rw [show (![3, 4, 12] : V3) 0 * (![3, 4, 12] : V3) 0 + (![3, 4, 12] : V3) 1 * (![3, 4, 12] : V3) 1 = 5 * 5 by simp; norm_num]
  exact Real.sqrt_mul_self (by norm_num)

example : (![3, 4, 12] : V3) ≠ fun _ => 0 := fun e => by have := congrFun e 0; simp at this

end

end Verif.Rotate
