import Verif.Rotate.Model
import Mathlib.Tactic.FinCases
import Mathlib.Tactic.FieldSimp
import Mathlib.Tactic.LinearCombination

/-! # Lemmas on angles and matrices -/

namespace Verif.Rotate
open Verif.Wells.Survey (V3 radians degrees rotation3d)

noncomputable section

theorem radians_degrees (r : ℝ) : radians (degrees r) = r := by
  unfold radians degrees
  have := Real.pi_ne_zero
  field_simp

theorem degrees_radians (d : ℝ) : degrees (radians d) = d := by
  unfold radians degrees
  have := Real.pi_ne_zero
  field_simp

theorem degrees_le {a b : ℝ} (h : a ≤ b) : degrees a ≤ degrees b := by
  unfold degrees
  have := Real.pi_pos
  gcongr

theorem degrees_lt {a b : ℝ} (h : a < b) : degrees a < degrees b := by
  unfold degrees
  have := Real.pi_pos
  gcongr

theorem degrees_zero : degrees 0 = 0 := by simp [degrees]

theorem degrees_pi : degrees Real.pi = 180 := by
  unfold degrees
  have := Real.pi_ne_zero
  field_simp

theorem degrees_two_pi : degrees (2 * Real.pi) = 360 := by
  unfold degrees
  have := Real.pi_ne_zero
  field_simp
  norm_num

theorem radians_lt {a b : ℝ} (h : a < b) : radians a < radians b := by
  unfold radians
  have := Real.pi_pos
  gcongr

theorem radians_360 : radians 360 = 2 * Real.pi := by unfold radians; ring

theorem fmod_nonneg {a b : ℝ} (hb : 0 < b) : 0 ≤ fmod a b := by
  unfold fmod
  have := Int.floor_le (a / b)
  have h := mul_le_mul_of_nonneg_left this hb.le
  rw [mul_div_cancel₀ _ hb.ne'] at h
  linarith

theorem fmod_lt {a b : ℝ} (hb : 0 < b) : fmod a b < b := by
  unfold fmod
  have := Int.lt_floor_add_one (a / b)
  have h := mul_lt_mul_of_pos_left this hb
  rw [mul_div_cancel₀ _ hb.ne'] at h
  linarith

theorem sin_fmod (a : ℝ) : Real.sin (fmod a (2 * Real.pi)) = Real.sin a := by
  unfold fmod
  have : a - 2 * Real.pi * ⌊a / (2 * Real.pi)⌋ = a - ⌊a / (2 * Real.pi)⌋ * (2 * Real.pi) := by ring
  rw [this, Real.sin_sub_int_mul_two_pi]

theorem cos_fmod (a : ℝ) : Real.cos (fmod a (2 * Real.pi)) = Real.cos a := by
  unfold fmod
  have : a - 2 * Real.pi * ⌊a / (2 * Real.pi)⌋ = a - ⌊a / (2 * Real.pi)⌋ * (2 * Real.pi) := by ring
  rw [this, Real.cos_sub_int_mul_two_pi]

theorem radians_fmod (a : ℝ) : radians (fmod a 360) = fmod (radians a) (2 * Real.pi) := by
  unfold fmod radians
  have : a * Real.pi / 180 / (2 * Real.pi) = a / 360 := by
    have := Real.pi_ne_zero
    field_simp
    ring
  rw [this]
  ring

/-- an angle is known by its sine and cosine -/
theorem angle_unique {a b : ℝ} (ha : 0 ≤ a) (ha' : a < 2 * Real.pi) (hb : 0 ≤ b) (hb' : b < 2 * Real.pi) (hs : Real.sin a = Real.sin b)
    (hc : Real.cos a = Real.cos b) : a = b := by
  have h1 : Real.cos (a - b) = 1 := by
    rw [Real.cos_sub, hs, hc]
    linear_combination Real.sin_sq_add_cos_sq b
  obtain ⟨n, hn⟩ := (Real.cos_eq_one_iff _).mp h1
  have hp : 0 < 2 * Real.pi := by have := Real.pi_pos; linarith
  have l1 : (n : ℝ) * (2 * Real.pi) < 1 * (2 * Real.pi) := by rw [hn]; linarith
  have l2 : (-1 : ℝ) * (2 * Real.pi) < (n : ℝ) * (2 * Real.pi) := by rw [hn]; linarith
  have l3 : (n : ℝ) < 1 := lt_of_mul_lt_mul_right l1 hp.le
  have l4 : (-1 : ℝ) < n := lt_of_mul_lt_mul_right l2 hp.le
  have l3' : n < 1 := by exact_mod_cast l3
  have l4' : -1 < n := by exact_mod_cast l4
  have : n = 0 := by omega
  rw [this] at hn
  simp at hn
  linarith

/-- sine and cosine of the angle in a right triangle -/
theorem arctan_of_unit {p q : ℝ} (h : p * p + q * q = 1) (hp : 0 < p) : Real.cos (Real.arctan (q / p)) = p ∧ Real.sin (Real.arctan (q / p)) = q := by
  have h1 : 1 + (q / p) ^ 2 = (1 / p) ^ 2 := by
    field_simp
    linear_combination h
  have h2 : Real.sqrt (1 + (q / p) ^ 2) = 1 / p := by
    rw [h1, Real.sqrt_sq (by positivity)]
  rw [Real.cos_arctan, Real.sin_arctan, h2]
  constructor
  · field_simp
  · field_simp

theorem arctan_of_unit_neg {p q : ℝ} (h : p * p + q * q = 1) (hp : p < 0) : Real.cos (Real.arctan (q / p)) = -p ∧ Real.sin (Real.arctan (q / p)) = -q := by
  have := arctan_of_unit (p := -p) (q := -q) (by linear_combination h) (by linarith)
  rwa [neg_div_neg_eq] at this

/-! ## Lengths -/

theorem dot_self_nonneg (v : V3) : 0 ≤ dot v v := by
  unfold dot
  nlinarith [mul_self_nonneg (v 0), mul_self_nonneg (v 1), mul_self_nonneg (v 2)]

theorem length_sq (v : V3) : length v * length v = dot v v := Real.mul_self_sqrt (dot_self_nonneg v)

theorem length_nonneg (v : V3) : 0 ≤ length v := Real.sqrt_nonneg _

theorem length_eq_zero {v : V3} : length v = 0 ↔ v = fun _ => 0 := by
  constructor
  · intro h
    have h1 := length_sq v
    rw [h, mul_zero] at h1
    unfold dot at h1
    have e0 := mul_self_nonneg (v 0)
    have e1 := mul_self_nonneg (v 1)
    have e2 := mul_self_nonneg (v 2)
    funext i
    fin_cases i
    · exact mul_self_eq_zero.mp (show v 0 * v 0 = 0 by linarith)
    · exact mul_self_eq_zero.mp (show v 1 * v 1 = 0 by linarith)
    · exact mul_self_eq_zero.mp (show v 2 * v 2 = 0 by linarith)
  · rintro rfl
    simp [length, dot]

theorem length_pos {v : V3} (h : v ≠ fun _ => 0) : 0 < length v := lt_of_le_of_ne (length_nonneg v) (fun e => h (length_eq_zero.mp e.symm))

theorem dot_smul (s t : ℝ) (v w : V3) : dot (s • v) (t • w) = s * t * dot v w := by
  unfold dot
  simp only [Pi.smul_apply, smul_eq_mul]
  ring

theorem unit_of {v : V3} (h : v ≠ fun _ => 0) : unitVector v = (1 / length v) • v := if_neg (length_pos h).ne'

theorem dot_unit {v : V3} (h : v ≠ fun _ => 0) : dot (unitVector v) (unitVector v) = 1 := by
  rw [unit_of h, dot_smul, ← length_sq]
  have := (length_pos h).ne'
  field_simp

/-! ## Matrices -/

theorem mulVec_apply (m : M3) (v : V3) (i : Fin 3) : m.mulVec v i = m i 0 * v 0 + m i 1 * v 1 + m i 2 * v 2 := by
  simp [Matrix.mulVec, dotProduct, Fin.sum_univ_three]

theorem mul_apply (m n : M3) (i j : Fin 3) : (m * n) i j = m i 0 * n 0 j + m i 1 * n 1 j + m i 2 * n 2 j := by
  simp [Matrix.mul_apply, Fin.sum_univ_three]

theorem dot_eq (a b : V3) : dot a b = a ⬝ᵥ b := by simp [dot, dotProduct, Fin.sum_univ_three]

theorem dot_mulVec {m : M3} (h : m.transpose * m = 1) (a b : V3) : dot (m.mulVec a) (m.mulVec b) = dot a b := by
  rw [dot_eq, dot_eq, Matrix.dotProduct_mulVec, ← Matrix.mulVec_transpose, Matrix.mulVec_mulVec, h, Matrix.one_mulVec]

theorem length_mulVec {m : M3} (h : m.transpose * m = 1) (a : V3) : length (m.mulVec a) = length a := by
  unfold length
  rw [dot_mulVec h]

/-- the turn about one axis, in full -/
theorem axial_0 (t : ℝ) : axial 0 t = !![1, 0, 0; 0, Real.cos (radians t), -Real.sin (radians t); 0, Real.sin (radians t), Real.cos (radians t)] := by
  ext i j
  fin_cases i <;> fin_cases j <;> simp [axial]

theorem axial_1 (t : ℝ) : axial 1 t = !![Real.cos (radians t), 0, Real.sin (radians t); 0, 1, 0; -Real.sin (radians t), 0, Real.cos (radians t)] := by
  ext i j
  fin_cases i <;> fin_cases j <;> simp [axial]

theorem axial_2 (t : ℝ) : axial 2 t = !![Real.cos (radians t), -Real.sin (radians t), 0; Real.sin (radians t), Real.cos (radians t), 0; 0, 0, 1] := by
  ext i j
  fin_cases i <;> fin_cases j <;> simp [axial]

theorem radians_add (a b : ℝ) : radians (a + b) = radians a + radians b := by unfold radians; ring

theorem radians_neg (a : ℝ) : radians (-a) = -radians a := by unfold radians; ring

theorem radians_sub (a b : ℝ) : radians (a - b) = radians a - radians b := by unfold radians; ring

end

end Verif.Rotate
