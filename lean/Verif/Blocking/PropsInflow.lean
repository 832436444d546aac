import Verif.Blocking.PropsKh

/-!
# C128: equivalent radii of blocks and well indices
-/

namespace Verif.Blocking
open Verif.Py

/-! ## specification -/

/-- Peaceman's equivalent radius for a well across an anisotropic block with permeabilities kx and ky and sides with squares dx and dy -/
noncomputable def peaceman (kx ky dx dy : ℝ) : ℝ :=
  (28 / 100) * Real.sqrt (Real.sqrt (ky / kx) * dx + Real.sqrt (kx / ky) * dy) / (Real.sqrt (Real.sqrt (ky / kx)) + Real.sqrt (Real.sqrt (kx / ky)))

/-- half the sum in the denominator -/
noncomputable def stretch (kx ky : ℝ) : ℝ := (1 / 2) * (Real.sqrt (Real.sqrt (ky / kx)) + Real.sqrt (Real.sqrt (kx / ky)))

/-- half of the numerator -/
noncomputable def blockSize (kx ky dx dy : ℝ) : ℝ := (14 / 100) * Real.sqrt (Real.sqrt (ky / kx) * dx + Real.sqrt (kx / ky) * dy)

theorem root_div {x y : ℝ} (hx : 0 < x) (hy : 0 < y) : Real.sqrt (x * y) / x = Real.sqrt (y / x) ∧ Real.sqrt (x * y) / y = Real.sqrt (x / y) := by
  constructor
  · rw [div_eq_iff hx.ne']
    have : Real.sqrt (y / x) * x = Real.sqrt (y / x) * Real.sqrt (x ^ 2) := by rw [Real.sqrt_sq hx.le]
    rw [this, ← Real.sqrt_mul (by positivity)]
    congr 1
    field_simp
  · rw [div_eq_iff hy.ne']
    have : Real.sqrt (x / y) * y = Real.sqrt (x / y) * Real.sqrt (y ^ 2) := by rw [Real.sqrt_sq hy.le]
    rw [this, ← Real.sqrt_mul (by positivity)]
    congr 1
    field_simp

theorem radwIn_formula (radw : ℝ) {x y : ℝ} (hx : 0 < x) (hy : 0 < y) : radwIn radw (Real.sqrt (x * y)) x y = .ok (radw * stretch x y) := by
  have h : 0 < Real.sqrt (x * y) := Real.sqrt_pos.mpr (by positivity)
  unfold radwIn
  rw [if_neg h.ne', pdiv_ok hx.ne', pdiv_ok hy.ne']
  simp only [rbind]
  rw [psqrt_ok (by positivity), psqrt_ok (by positivity)]
  simp only [rbind]
  rw [(root_div hx hy).1, (root_div hx hy).2]
  unfold stretch
  congr 1
  ring

theorem radbIn_formula {x y dx dy : ℝ} (hx : 0 < x) (hy : 0 < y) (h1 : 0 ≤ dx) (h2 : 0 ≤ dy) :
    radbIn (Real.sqrt (x * y)) dx x dy y = .ok (blockSize x y dx dy) := by
  have h : 0 < Real.sqrt (x * y) := Real.sqrt_pos.mpr (by positivity)
  unfold radbIn
  rw [if_neg h.ne', pdiv_ok hx.ne', pdiv_ok hy.ne']
  simp only [rbind]
  rw [psqrt_ok (by positivity)]
  simp only [rbind]
  unfold blockSize
  congr 3
  rw [← (root_div hx hy).1, ← (root_div hx hy).2]
  ring

theorem stretch_one {x y : ℝ} (hx : 0 < x) (hy : 0 < y) : 1 ≤ stretch x y := by
  have h1 : 0 < y / x := by positivity
  have h2 : x / y = (y / x)⁻¹ := by field_simp
  unfold stretch
  rw [h2, Real.sqrt_inv, Real.sqrt_inv]
  have h3 : 0 < Real.sqrt (Real.sqrt (y / x)) := Real.sqrt_pos.mpr (Real.sqrt_pos.mpr h1)
  generalize Real.sqrt (Real.sqrt (y / x)) = s at h3
  have h4 : s * s⁻¹ = 1 := by field_simp
  have h5 : 0 < s⁻¹ := by positivity
  nlinarith [sq_nonneg (s - s⁻¹)]

theorem stretch_same {x : ℝ} (hx : 0 < x) : stretch x x = 1 := by
  unfold stretch
  rw [div_self hx.ne', Real.sqrt_one, Real.sqrt_one]
  norm_num

/-- the equivalent radius for an interval in any direction (i, j, k) -/
noncomputable def radbSpec (ki kj kk dk dj di i j k : ℝ) : ℝ :=
  Real.sqrt ((blockSize kj kk dj dk * i) ^ 2 + (blockSize ki kk di dk * j) ^ 2 + (blockSize ki kj di dj * k) ^ 2) /
    Real.sqrt ((stretch kj kk * i) ^ 2 + (stretch ki kk * j) ^ 2 + (stretch ki kj * k) ^ 2)

theorem stretched_pos {ki kj kk : ℝ} (hi : 0 < ki) (hj : 0 < kj) (hk : 0 < kk) {i j k : ℝ} (hd : i ^ 2 + j ^ 2 + k ^ 2 = 1) :
    0 < (stretch kj kk * i) ^ 2 + (stretch ki kk * j) ^ 2 + (stretch ki kj * k) ^ 2 := by
  have b : ∀ {s : ℝ}, 1 ≤ s → ∀ t : ℝ, t ^ 2 ≤ (s * t) ^ 2 := by
    intro s hs t
    rw [mul_pow]
    have : 1 ≤ s ^ 2 := by nlinarith
    nlinarith [sq_nonneg t]
  have := b (stretch_one hj hk) i
  have := b (stretch_one hi hk) j
  have := b (stretch_one hi hj) k
  linarith

/-- **C128** with positive permeabilities the equivalent radius does not depend on the radius of the well, and is given by the three radii of
Peaceman's formula, numerators and denominators each combined as the components of a vector; the shortcut for equal permeabilities agrees -/
theorem C128_formula (shortcut : Bool) (radw ki kj kk dk dj di : ℝ) (a : Angles) (ha : a.Proper) (hr : 0 < radw) (hi : 0 < ki) (hj : 0 < kj) (hk : 0 < kk)
    (h1 : 0 ≤ dk) (h2 : 0 ≤ dj) (h3 : 0 ≤ di) (hs : shortcut = true → ki = kj ∧ ki = kk) :
    radbFor shortcut radw ki kj kk dk dj di a = .ok (radbSpec ki kj kk dk dj di (a.sv * a.ca) (a.sv * a.sa) a.cv) := by
  have hu := proper_unit ha
  have be : ∀ ke : ℝ × ℝ × ℝ, ke = (Real.sqrt (kj * kk), Real.sqrt (ki * kk), Real.sqrt (ki * kj)) →
      radbE ke ki kj kk dk dj di a = .ok (Real.sqrt ((blockSize kj kk dj dk * (a.sv * a.ca)) ^ 2 + (blockSize ki kk di dk * (a.sv * a.sa)) ^ 2 +
        (blockSize ki kj di dj * a.cv) ^ 2)) := by
    rintro _ rfl
    unfold radbE
    simp only
    rw [radbIn_formula hj hk h2 h1, radbIn_formula hi hk h3 h1, radbIn_formula hi hj h3 h2]
    simp only [rbind]
    rw [psqrt_ok (add_nonneg (add_nonneg (mul_self_nonneg _) (mul_self_nonneg _)) (mul_self_nonneg _))]
    congr 2
    ring
  have hpos := stretched_pos hi hj hk hu
  unfold radbFor keRadw
  cases shortcut with
  | true =>
    obtain ⟨rfl, rfl⟩ := hs rfl
    simp only [if_true, rbind]
    rw [be (ki, ki, ki) (by rw [Real.sqrt_mul_self hi.le]), rbind, pdiv_ok hr.ne']
    unfold radbSpec
    rw [stretch_same hi]
    simp only [one_mul]
    rw [hu, Real.sqrt_one, div_one, mul_comm, mul_div_assoc, div_self hr.ne', mul_one]
  | false =>
    simp only [Bool.false_eq_true, if_false]
    rw [psqrt_ok (by positivity), psqrt_ok (by positivity), psqrt_ok (by positivity)]
    simp only [rbind]
    rw [radwIn_formula radw hj hk, radwIn_formula radw hi hk, radwIn_formula radw hi hj]
    simp only [rbind]
    rw [psqrt_ok (add_nonneg (add_nonneg (mul_self_nonneg _) (mul_self_nonneg _)) (mul_self_nonneg _))]
    simp only [rbind]
    rw [be _ rfl, rbind]
    have e1 : radw * stretch kj kk * a.sv * a.ca * (radw * stretch kj kk * a.sv * a.ca) + radw * stretch ki kk * a.sv * a.sa * (radw * stretch ki kk * a.sv * a.sa) +
        radw * stretch ki kj * a.cv * (radw * stretch ki kj * a.cv) =
        radw ^ 2 * ((stretch kj kk * (a.sv * a.ca)) ^ 2 + (stretch ki kk * (a.sv * a.sa)) ^ 2 + (stretch ki kj * a.cv) ^ 2) := by ring
    have hsq := Real.sqrt_pos.mpr hpos
    rw [e1, Real.sqrt_mul (by positivity), Real.sqrt_sq hr.le, if_neg (by positivity), pdiv_ok (by positivity)]
    unfold radbSpec
    rw [mul_div_mul_left _ _ hr.ne']

theorem peaceman_eq (kx ky dx dy : ℝ) : peaceman kx ky dx dy = blockSize kx ky dx dy / stretch kx ky := by
  unfold peaceman blockSize stretch
  rw [mul_div_mul_comm]
  ring

theorem axis_ratio {b s t : ℝ} (hb : 0 ≤ b) (hs : 0 ≤ s) (ht : t ^ 2 = 1) : Real.sqrt ((b * t) ^ 2) / Real.sqrt ((s * t) ^ 2) = b / s := by
  rw [mul_pow, mul_pow, ht, mul_one, mul_one, Real.sqrt_sq hb, Real.sqrt_sq hs]

/-- **C128** for an interval along one of the axes of the cell the equivalent radius is Peaceman's, for the two other directions -/
theorem C128_axes (shortcut : Bool) (radw ki kj kk dk dj di : ℝ) (a : Angles) (ha : a.Proper) (hr : 0 < radw) (hi : 0 < ki) (hj : 0 < kj) (hk : 0 < kk)
    (h1 : 0 ≤ dk) (h2 : 0 ≤ dj) (h3 : 0 ≤ di) (hs : shortcut = true → ki = kj ∧ ki = kk) :
    (a.sv = 0 → radbFor shortcut radw ki kj kk dk dj di a = .ok (peaceman ki kj di dj)) ∧
    (a.cv = 0 → a.ca = 0 → radbFor shortcut radw ki kj kk dk dj di a = .ok (peaceman ki kk di dk)) ∧
    (a.cv = 0 → a.sa = 0 → radbFor shortcut radw ki kj kk dk dj di a = .ok (peaceman kj kk dj dk)) := by
  have hf := C128_formula shortcut radw ki kj kk dk dj di a ha hr hi hj hk h1 h2 h3 hs
  have hu := proper_unit ha
  have nb : ∀ x y u v, 0 ≤ blockSize x y u v := by intro x y u v; unfold blockSize; positivity
  have ns : ∀ x y, 0 ≤ stretch x y := by intro x y; unfold stretch; positivity
  refine ⟨?_, ?_, ?_⟩
  · intro h0
    rw [h0] at hu
    rw [hf, h0, radbSpec, peaceman_eq, ← axis_ratio (nb ki kj di dj) (ns ki kj) (show a.cv ^ 2 = 1 by linarith)]
    simp
  · intro h0 h0'
    rw [h0, h0'] at hu
    rw [hf, h0, h0', radbSpec, peaceman_eq, ← axis_ratio (nb ki kk di dk) (ns ki kk) (show (a.sv * a.sa) ^ 2 = 1 by linarith)]
    simp
  · intro h0 h0'
    rw [h0, h0'] at hu
    rw [hf, h0, h0', radbSpec, peaceman_eq, ← axis_ratio (nb kj kk dj dk) (ns kj kk) (show (a.sv * a.ca) ^ 2 = 1 by linarith)]
    simp

/-- **C128** the equivalent radius does not change if all permeabilities are multiplied by the same number -/
theorem C128_permeability_unit (t radw ki kj kk dk dj di : ℝ) (ht : 0 < t) (a : Angles) (ha : a.Proper) (hr : 0 < radw) (hi : 0 < ki) (hj : 0 < kj) (hk : 0 < kk)
    (h1 : 0 ≤ dk) (h2 : 0 ≤ dj) (h3 : 0 ≤ di) :
    radbFor false radw (t * ki) (t * kj) (t * kk) dk dj di a = radbFor false radw ki kj kk dk dj di a := by
  rw [C128_formula false radw _ _ _ dk dj di a ha hr (by positivity) (by positivity) (by positivity) h1 h2 h3 (by simp),
    C128_formula false radw ki kj kk dk dj di a ha hr hi hj hk h1 h2 h3 (by simp)]
  have e : ∀ x y : ℝ, t * x / (t * y) = x / y := fun x y => mul_div_mul_left x y ht.ne'
  unfold radbSpec blockSize stretch
  simp only [e]

/-- **C128** the equivalent radius scales with the size of the cell -/
theorem C128_length_unit (t radw ki kj kk dk dj di : ℝ) (ht : 0 < t) (a : Angles) (ha : a.Proper) (hr : 0 < radw) (hi : 0 < ki) (hj : 0 < kj) (hk : 0 < kk)
    (h1 : 0 ≤ dk) (h2 : 0 ≤ dj) (h3 : 0 ≤ di) (r : ℝ) (h : radbFor false radw ki kj kk dk dj di a = .ok r) :
    radbFor false radw ki kj kk (t ^ 2 * dk) (t ^ 2 * dj) (t ^ 2 * di) a = .ok (t * r) := by
  rw [C128_formula false radw ki kj kk dk dj di a ha hr hi hj hk h1 h2 h3 (by simp)] at h
  cases h
  rw [C128_formula false radw ki kj kk _ _ _ a ha hr hi hj hk (by positivity) (by positivity) (by positivity) (by simp)]
  congr 1
  have e : ∀ x y u v, blockSize x y (t ^ 2 * u) (t ^ 2 * v) = t * blockSize x y u v := by
    intro x y u v
    unfold blockSize
    have : Real.sqrt (y / x) * (t ^ 2 * u) + Real.sqrt (x / y) * (t ^ 2 * v) = t ^ 2 * (Real.sqrt (y / x) * u + Real.sqrt (x / y) * v) := by ring
    rw [this, Real.sqrt_mul (by positivity), Real.sqrt_sq ht.le]
    ring
  unfold radbSpec
  rw [e, e, e]
  have : (t * blockSize kj kk dj dk * (a.sv * a.ca)) ^ 2 + (t * blockSize ki kk di dk * (a.sv * a.sa)) ^ 2 + (t * blockSize ki kj di dj * a.cv) ^ 2 =
      t ^ 2 * ((blockSize kj kk dj dk * (a.sv * a.ca)) ^ 2 + (blockSize ki kk di dk * (a.sv * a.sa)) ^ 2 + (blockSize ki kj di dj * a.cv) ^ 2) := by ring
  rw [this, Real.sqrt_mul (by positivity), Real.sqrt_sq ht.le]
  ring

theorem radwIn_any (radw ke x y : ℝ) (h : ke = Real.sqrt (x * y)) (hx : 0 ≤ x) (hy : 0 ≤ y) : ∃ r, radwIn radw ke x y = .ok r := by
  subst h
  by_cases h0 : 0 < x ∧ 0 < y
  · exact ⟨_, radwIn_formula radw h0.1 h0.2⟩
  · have hz : x * y = 0 := by
      by_contra hne
      apply h0
      refine ⟨lt_of_le_of_ne hx ?_, lt_of_le_of_ne hy ?_⟩ <;> (rintro rfl; simp at hne)
    exact ⟨0, by unfold radwIn; rw [hz, Real.sqrt_zero, if_pos rfl]⟩

theorem radbIn_any (ke dx x dy y : ℝ) (h : ke = Real.sqrt (x * y)) (hx : 0 ≤ x) (hy : 0 ≤ y) (h1 : 0 ≤ dx) (h2 : 0 ≤ dy) :
    ∃ r, radbIn ke dx x dy y = .ok r := by
  subst h
  by_cases h0 : 0 < x ∧ 0 < y
  · exact ⟨_, radbIn_formula h0.1 h0.2 h1 h2⟩
  · have hz : x * y = 0 := by
      by_contra hne
      apply h0
      refine ⟨lt_of_le_of_ne hx ?_, lt_of_le_of_ne hy ?_⟩ <;> (rintro rfl; simp at hne)
    exact ⟨0, by unfold radbIn; rw [hz, Real.sqrt_zero, if_pos rfl]⟩

/-- **C128** for permeabilities which are not negative the equivalent radius is always found and is not negative -/
theorem C128_never_raises (shortcut : Bool) (radw ki kj kk dk dj di : ℝ) (a : Angles) (hr : 0 < radw) (hi : 0 ≤ ki) (hj : 0 ≤ kj) (hk : 0 ≤ kk)
    (h1 : 0 ≤ dk) (h2 : 0 ≤ dj) (h3 : 0 ≤ di) (hs : shortcut = true → ki = kj ∧ ki = kk) :
    ∃ r, 0 ≤ r ∧ radbFor shortcut radw ki kj kk dk dj di a = .ok r := by
  have bb : ∀ ke : ℝ × ℝ × ℝ, ke.1 = Real.sqrt (kj * kk) → ke.2.1 = Real.sqrt (ki * kk) → ke.2.2 = Real.sqrt (ki * kj) →
      ∃ b, 0 ≤ b ∧ radbE ke ki kj kk dk dj di a = .ok b := by
    intro ke e1 e2 e3
    obtain ⟨x, hx⟩ := radbIn_any ke.1 dj kj dk kk e1 hj hk h2 h1
    obtain ⟨y, hy⟩ := radbIn_any ke.2.1 di ki dk kk e2 hi hk h3 h1
    obtain ⟨z, hz⟩ := radbIn_any ke.2.2 di ki dj kj e3 hi hj h3 h2
    unfold radbE
    rw [hx, hy, hz]
    simp only [rbind]
    rw [psqrt_ok (add_nonneg (add_nonneg (mul_self_nonneg _) (mul_self_nonneg _)) (mul_self_nonneg _))]
    exact ⟨_, Real.sqrt_nonneg _, rfl⟩
  unfold radbFor keRadw
  cases shortcut with
  | true =>
    obtain ⟨rfl, rfl⟩ := hs rfl
    obtain ⟨b, hb0, hb⟩ := bb (ki, ki, ki) (by rw [Real.sqrt_mul_self hi]) (by rw [Real.sqrt_mul_self hi]) (by rw [Real.sqrt_mul_self hi])
    simp only [if_true, rbind]
    rw [hb, rbind, pdiv_ok hr.ne']
    exact ⟨_, by positivity, rfl⟩
  | false =>
    simp only [Bool.false_eq_true, if_false]
    rw [psqrt_ok (by positivity), psqrt_ok (by positivity), psqrt_ok (by positivity)]
    simp only [rbind]
    obtain ⟨x, hx⟩ := radwIn_any radw _ kj kk rfl hj hk
    obtain ⟨y, hy⟩ := radwIn_any radw _ ki kk rfl hi hk
    obtain ⟨z, hz⟩ := radwIn_any radw _ ki kj rfl hi hj
    rw [hx, hy, hz]
    simp only [rbind]
    rw [psqrt_ok (add_nonneg (add_nonneg (mul_self_nonneg _) (mul_self_nonneg _)) (mul_self_nonneg _))]
    simp only [rbind]
    obtain ⟨b, hb0, hb⟩ := bb (Real.sqrt (kj * kk), Real.sqrt (ki * kk), Real.sqrt (ki * kj)) rfl rfl rfl
    rw [hb, rbind]
    split_ifs with h0
    · rw [pdiv_ok hr.ne']
      exact ⟨_, by positivity, rfl⟩
    · rw [pdiv_ok h0]
      have := Real.sqrt_nonneg (x * a.sv * a.ca * (x * a.sv * a.ca) + y * a.sv * a.sa * (y * a.sv * a.sa) + z * a.cv * (z * a.cv))
      exact ⟨_, by positivity, rfl⟩

/-- **C128** the well index answers the inflow equation for its radii and skin -/
theorem C128_well_index_partial (radb radw skin : ℝ) (hb : 0 < radb) (hn : Real.log (radb / radw) + skin ≠ 0) :
    ∃ wi, wiFor radb radw skin = .ok wi ∧ wi * (Real.log (radb / radw) + skin) = 2 * Real.pi := by
  unfold wiFor
  rw [if_neg (not_le.mpr hb), pdiv_ok hn]
  exact ⟨_, rfl, div_mul_cancel₀ _ hn⟩

/-- **C128** a cell without permeability across the well has no well index -/
theorem C128_no_permeability (radw skin kk dk dj di : ℝ) (a : Angles) (hr : 0 < radw) (hv : a.sv = 0) (hk : 0 ≤ kk) (h1 : 0 ≤ dk) (h2 : 0 ≤ dj) (h3 : 0 ≤ di) :
    ∃ r, radbFor false radw 0 0 kk dk dj di a = .ok r ∧ wiFor r radw skin = .ok 0 := by
  refine ⟨0, ?_, ?_⟩
  · unfold radbFor keRadw radbE
    simp [psqrt, rbind, radwIn, radbIn, hv, pdiv, hr.ne']
  · unfold wiFor
    rw [if_pos le_rfl]

/-- **C128 fails** for cells of about the size of the well, or wells stimulated enough: the well index is negative, or its calculation fails -/
theorem C128_small_cells_violated (radw skin : ℝ) (hr : 0 < radw) :
    (∀ radb, 0 < radb → radb < radw * Real.exp (-skin) → ∃ wi, wiFor radb radw skin = .ok wi ∧ wi < 0) ∧
    wiFor (radw * Real.exp (-skin)) radw skin = .error .zeroDiv := by
  constructor
  · intro radb h1 h2
    have h3 : Real.log (radb / radw) + skin < 0 := by
      have : radb / radw < Real.exp (-skin) := by
        rw [div_lt_iff₀ hr]; linarith
      have := Real.log_lt_log (by positivity) this
      rw [Real.log_exp] at this
      linarith
    refine ⟨2 * Real.pi / (Real.log (radb / radw) + skin), ?_, ?_⟩
    · unfold wiFor
      rw [if_neg (not_le.mpr h1), pdiv_ok h3.ne]
    · exact div_neg_of_pos_of_neg (by positivity) h3
  · have h1 : 0 < radw * Real.exp (-skin) := by positivity
    unfold wiFor pdiv
    rw [if_neg (not_le.mpr h1), mul_div_cancel_left₀ _ hr.ne', Real.log_exp, neg_add_cancel, if_pos rfl]

/-! ## the hypotheses can be met -/

example : radbFor false (1 / 10) 100 100 10 100 10000 10000 ⟨0, 0, 1, 0, 1⟩ = .ok (14 / 100 * Real.sqrt 20000) := by
  rw [(C128_axes false (1 / 10) 100 100 10 100 10000 10000 ⟨0, 0, 1, 0, 1⟩ ⟨by norm_num, by norm_num, by norm_num⟩ (by norm_num) (by norm_num) (by norm_num)
    (by norm_num) (by norm_num) (by norm_num) (by norm_num) (by simp)).1 rfl]
  unfold peaceman
  norm_num
  ring

example : ∃ wi, wiFor 20 (1 / 10) 0 = .ok wi ∧ wi * (Real.log (20 / (1 / 10)) + 0) = 2 * Real.pi := by
  refine C128_well_index_partial 20 (1 / 10) 0 (by norm_num) ?_
  rw [add_zero]
  exact (Real.log_pos (by norm_num)).ne'

end Verif.Blocking
