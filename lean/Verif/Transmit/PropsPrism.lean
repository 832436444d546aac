import Verif.Transmit.Prism
import Verif.Plane.PropsMeasure
import Verif.Rotate.Props
import Mathlib.Tactic.Linarith
import Mathlib.Tactic.Ring
import Mathlib.Tactic.FieldSimp
import Mathlib.Tactic.FinCases
import Mathlib.Tactic.NormNum

/-!
# Properties: half cell transmissibilities of vertical prism grids (C118)
-/

namespace Verif.Transmit.Prism
open Verif.Py
open Verif.Wells.Survey (V3 radians)
open Verif.Rotate (azimuth azimuthOfArray Across across)

/-! ## Specification -/

/-- twice the area of the triangle seen from above -/
noncomputable def twiceArea (t : Tri) : ℝ := |(t 1 0 - t 0 0) * (t 2 1 - t 0 1) - (t 1 1 - t 0 1) * (t 2 0 - t 0 0)|

/-- the square of the distance, seen from above, from the centre of the triangle to the middle of the side between corners `a` and `b` -/
noncomputable def toSideSq (t : Tri) (a b : Fin 3) : ℝ :=
  ((t a 0 + t b 0) / 2 - (t 0 0 + t 1 0 + t 2 0) / 3) ^ 2 + ((t a 1 + t b 1) / 2 - (t 0 1 + t 1 1 + t 2 1) / 3) ^ 2

/-- the value for flow from the centre of a cell to a side face of it, for permeability `k`: the area of the face seen along the flow,
which is a width times the height of the face, over the distance; the width times the distance is a third of twice the area -/
noncomputable def sideValue (t : Tri) (a b : Fin 3) (height k : ℝ) : ℝ := k * height * (twiceArea t / 3) / toSideSq t a b

theorem flow_sq (t : Tri) (e : Fin 3) : flowLength t e * flowLength t e = toSideSq t (e + 1) (e + 2) := by
  unfold flowLength
  rw [Real.mul_self_sqrt (by nlinarith [mul_self_nonneg (cem t e 0), mul_self_nonneg (cem t e 1)])]
  simp only [cem, edgeMidpoint, centre, toSideSq]
  ring

/-- **C118** — for each side of a triangle the width times the distance worked out are a third of twice the area of the triangle, and the
distance is that from the centre of the triangle to the middle of the side opposite to the corner. -/
theorem C118_lengths (t : Tri) (e : Fin 3) : normalLength t e * flowLength t e = twiceArea t / 3 ∧
    0 ≤ flowLength t e ∧ flowLength t e ^ 2 = toSideSq t (e + 1) (e + 2) := by
  refine ⟨?_, Real.sqrt_nonneg _, by rw [pow_two]; exact flow_sq t e⟩
  have hn : Real.sqrt (cem t e 1 * cem t e 1 + -cem t e 0 * -cem t e 0) = flowLength t e := by
    unfold flowLength; congr 1; ring
  have hcr : |edgeVector t e 0 * cem t e 1 + edgeVector t e 1 * -cem t e 0| = twiceArea t / 3 := by
    have h3 : twiceArea t / 3 = |((t 1 0 - t 0 0) * (t 2 1 - t 0 1) - (t 1 1 - t 0 1) * (t 2 0 - t 0 0)) / 3| := by
      rw [abs_div, abs_of_pos (by norm_num : (0 : ℝ) < 3)]; rfl
    rw [h3]
    fin_cases e
    · show |(t 2 0 - t 1 0) * (1 / 2 * (t 1 1 + t 2 1) - (t 0 1 + t 1 1 + t 2 1) / 3) + (t 2 1 - t 1 1) * -(1 / 2 * (t 1 0 + t 2 0) - (t 0 0 + t 1 0 + t 2 0) / 3)| = _
      rw [← abs_neg]; congr 1; ring
    · show |(t 0 0 - t 2 0) * (1 / 2 * (t 2 1 + t 0 1) - (t 0 1 + t 1 1 + t 2 1) / 3) + (t 0 1 - t 2 1) * -(1 / 2 * (t 2 0 + t 0 0) - (t 0 0 + t 1 0 + t 2 0) / 3)| = _
      rw [← abs_neg]; congr 1; ring
    · show |(t 1 0 - t 0 0) * (1 / 2 * (t 0 1 + t 1 1) - (t 0 1 + t 1 1 + t 2 1) / 3) + (t 1 1 - t 0 1) * -(1 / 2 * (t 0 0 + t 1 0) - (t 0 0 + t 1 0 + t 2 0) / 3)| = _
      rw [← abs_neg]; congr 1; ring
  unfold normalLength
  dsimp only
  rw [hn]
  by_cases h : flowLength t e = 0
  · rw [if_pos h, h, mul_zero, ← hcr]
    have h2 : cem t e 0 * cem t e 0 + cem t e 1 * cem t e 1 = 0 := by
      have := flow_sq t e
      rw [h] at this
      simp only [cem, edgeMidpoint, centre, toSideSq] at this ⊢
      linarith
    have a0 : cem t e 0 = 0 := by nlinarith [mul_self_nonneg (cem t e 0), mul_self_nonneg (cem t e 1)]
    have a1 : cem t e 1 = 0 := by nlinarith [mul_self_nonneg (cem t e 0), mul_self_nonneg (cem t e 1)]
    rw [a0, a1]; simp
  · rw [if_neg h, ← hcr]
    have hpos : 0 < flowLength t e := lt_of_le_of_ne (Real.sqrt_nonneg _) (Ne.symm h)
    rw [← abs_of_pos hpos, ← abs_mul, abs_of_pos hpos]
    congr 1
    field_simp

/-- **C118** — the values for the top and base faces are permeability times the area of the triangle seen from above over half the mean
thickness, times the Darcy constant; there is no value where half the thickness is below the tolerance. -/
theorem C118_vertical (t : Tri) (thick : ℝ) (triple : Fin 3 → ℝ) (k : ℝ) (ntg : Option ℝ) (darcy tol : ℝ) (face : Fin 5) (hf : face.val < 2) :
    halfCell t thick triple (some k) ntg darcy tol face =
      (if thick / 2 < tol then none else some (darcy * k * (twiceArea t / 2) / (thick / 2))) ∧
    halfCell t thick triple none ntg darcy tol face = halfCell t thick triple (some ((triple 0 + triple 1 + triple 2) / 3)) ntg darcy tol face := by
  have ha : areaXY t = twiceArea t / 2 := by
    unfold areaXY twiceArea
    refine Plane.heron_of_squares ?_ (abs_nonneg _)
    rw [abs_mul_abs_self]
    simp only [Plane.length2d_mul, Pi.sub_apply]
    ring
  have hface : face = 0 ∨ face = 1 := by
    rcases face with ⟨f, h⟩
    simp only at hf
    have : f = 0 ∨ f = 1 := by omega
    rcases this with rfl | rfl
    · exact Or.inl rfl
    · exact Or.inr rfl
  constructor
  · unfold halfCell
    dsimp only
    rw [if_pos hface, ha, show (1 : ℝ) / 2 * thick = thick / 2 by ring]
    by_cases hl : thick / 2 < tol
    · rw [if_pos hl, if_pos hl]
    · rw [if_neg hl, if_neg hl, Option.getD_some]
      congr 1
      ring
  · unfold halfCell
    dsimp only
    rw [if_pos hface, if_pos hface, Option.getD_none, Option.getD_some]

/-- the place among the five of side `e` -/
def place (e : Fin 3) : Fin 5 := ⟨e.val + 2, by omega⟩

theorem halfCell_side (t : Tri) (thick : ℝ) (triple : Fin 3 → ℝ) (permK ntg : Option ℝ) (darcy tol : ℝ) (e : Fin 3) :
    halfCell t thick triple permK ntg darcy tol (place e) =
      if flowLength t e < tol then none else some (triple e * normalLength t e / flowLength t e * ntg.getD 1 * darcy) := by
  unfold halfCell
  fin_cases e <;> rfl

/-- **C118** — part: the value in place `2 + e` is that for a height of one of the face opposite to corner `e` of the triangle, times the
net to gross ratio and the Darcy constant.  Missing: the height of the face (`C118_height_violated`), and the order of the faces
(`C118_order_violated`). -/
theorem C118_sides_partial (t : Tri) (thick : ℝ) (triple : Fin 3 → ℝ) (permK ntg : Option ℝ) (darcy : ℝ) {tol : ℝ} (ht : 0 < tol) (e : Fin 3) :
    halfCell t thick triple permK ntg darcy tol (place e) =
      if toSideSq t (e + 1) (e + 2) < tol ^ 2 then none else some (darcy * ntg.getD 1 * sideValue t (e + 1) (e + 2) 1 (triple e)) := by
  obtain ⟨h1, h2, h3⟩ := C118_lengths t e
  rw [halfCell_side, ← h3]
  by_cases h : flowLength t e < tol
  · rw [if_pos h, if_pos (by exact pow_lt_pow_left₀ h h2 (by norm_num))]
  · have hp : 0 < flowLength t e := lt_of_lt_of_le ht (not_lt.1 h)
    rw [if_neg h, if_neg (by rw [not_lt]; exact pow_le_pow_left₀ ht.le (not_lt.1 h) 2)]
    congr 1
    unfold sideValue
    rw [← h3, ← h1]
    field_simp

/-- **C118** — the thickness used for a cell is the vertical distance, at the centroid of the triangle seen from above, between the planes through
its top and base corners. -/
theorem C118_thickness (top base : Tri) (p q r p' q' r' : ℝ) (ht : ∀ i, top i 2 = p + q * top i 0 + r * top i 1)
    (hb : ∀ i, base i 2 = p' + q' * top i 0 + r' * top i 1) :
    thickness top base =
      (p' + q' * ((top 0 0 + top 1 0 + top 2 0) / 3) + r' * ((top 0 1 + top 1 1 + top 2 1) / 3)) -
      (p + q * ((top 0 0 + top 1 0 + top 2 0) / 3) + r * ((top 0 1 + top 1 1 + top 2 1) / 3)) := by
  unfold thickness
  rw [ht 0, ht 1, ht 2, hb 0, hb 1, hb 2]
  ring

/-- a flat top and a base dipping along x -/
example : ∃ (top base : Tri) (p q r p' q' r' : ℝ), (∀ i, top i 2 = p + q * top i 0 + r * top i 1) ∧
    (∀ i, base i 2 = p' + q' * top i 0 + r' * top i 1) ∧ q' ≠ 0 ∧ top 0 0 ≠ top 1 0 := by
  refine ⟨fun i c => if c = 2 then 5 else if c = 0 ∧ i = 1 then 1 else 0, fun i c => if c = 2 then (if i = 1 then 9 else 8) else 0, 5, 0, 0, 8, 1, 0, ?_, ?_, ?_, ?_⟩
  · intro i; fin_cases i <;> simp
  · intro i; fin_cases i <;> simp <;> norm_num
  · norm_num
  · simp

/-- **C118** — violated: the values for the side faces are the same whatever the thickness of the cell, so for one and the same triangle,
of area 1/2 and with permeability 1, a cell twice as thick as another has the same values instead of twice these. -/
theorem C118_height_violated : (∀ (t : Tri) (thick thick' : ℝ) (triple : Fin 3 → ℝ) (permK ntg : Option ℝ) (darcy tol : ℝ) (e : Fin 3),
      halfCell t thick triple permK ntg darcy tol (place e) = halfCell t thick' triple permK ntg darcy tol (place e)) ∧
    ∃ t : Tri, halfCell t 2 (fun _ => 1) none none 1 (1 / 1000000) (place 0) = some (sideValue t 1 2 1 1) ∧ sideValue t 1 2 1 1 ≠ sideValue t 1 2 2 1 := by
  constructor
  · intro t thick thick' triple permK ntg darcy tol e
    rw [halfCell_side, halfCell_side]
  · refine ⟨![![0, 0, 0], ![1, 0, 0], ![0, 1, 0]], ?_, ?_⟩
    · rw [C118_sides_partial _ _ _ _ _ _ (by norm_num) 0]
      rw [if_neg (by simp [toSideSq]; norm_num)]
      simp
    · simp [sideValue, twiceArea, toSideSq]; norm_num

/-- **C118** — violated: the values for the side faces are not in the order in which the cell lists its faces.  The side face in place
`2 + e` stands on corners `e - 1` and `e`; for some triangle the value there is not that of this face (which is the value in the place before),
even with the same permeability for all sides and a height of one. -/
theorem C118_order_violated : ∃ t : Tri, ∀ e : Fin 3, ∀ v, halfCell t 1 (fun _ => 1) none none 1 (1 / 1000000) (place e) = some v →
    v ≠ sideValue t (sideFace e).1 (sideFace e).2 1 1 := by
  refine ⟨![![0, 0, 0], ![6, 0, 0], ![0, 12, 0]], ?_⟩
  intro e v
  rw [C118_sides_partial _ _ _ _ _ _ (by norm_num) e]
  intro h
  rw [Option.ite_none_left_eq_some] at h
  obtain ⟨-, h⟩ := h
  simp only [Option.getD_none, mul_one, one_mul, Option.some.injEq] at h
  rw [← h]
  fin_cases e
  · show sideValue _ 1 2 1 1 ≠ sideValue _ 2 0 1 1
    simp [sideValue, twiceArea, toSideSq]; norm_num
  · show sideValue _ 2 0 1 1 ≠ sideValue _ 0 1 1 1
    simp [sideValue, twiceArea, toSideSq]; norm_num
  · show sideValue _ 0 1 1 1 ≠ sideValue _ 1 2 1 1
    simp [sideValue, twiceArea, toSideSq]; norm_num

/-- **C118** — triple permeabilities: for the side face in place `2 + e` the value is, in the direction from the centre of the cell to the
middle of the side that face stands on, that of the ellipse with the primary value along the azimuth and the orthogonal value across it:
between the two given values, and equal to either in its own direction. -/
theorem C118_triple {top base : Tri} (hv : ∀ e c, c ≠ 2 → base e c = top e c) (primary orthogonal az : ℝ) (hp : 0 ≤ primary) (ho : 0 ≤ orthogonal) (e : Fin 3)
    (hs : 0 < toSideSq top (sideFace e).1 (sideFace e).2) :
    ∃ k x y : ℝ, triplePermeability top base primary orthogonal az e = some k ∧ 0 ≤ k ∧
      x ^ 2 + y ^ 2 = 1 ∧
      (∃ l, 0 < l ∧ ∀ c, c = 0 ∨ c = 1 → (top (sideFace e).1 c + top (sideFace e).2 c) / 2 - (top 0 c + top 1 c + top 2 c) / 3 =
        l * (if c = 0 then x * Real.sin (radians az) + y * Real.cos (radians az) else x * Real.cos (radians az) - y * Real.sin (radians az))) ∧
      k ^ 2 = (primary * x) ^ 2 + (orthogonal * y) ^ 2 ∧ min primary orthogonal ≤ k ∧ k ≤ max primary orthogonal := by
  have hd : ∀ c, c ≠ 2 → towardsSide top base e c = (top (sideFace e).1 c + top (sideFace e).2 c) / 2 - (top 0 c + top 1 c + top 2 c) / 3 := by
    intro c hc
    simp only [towardsSide, sideFace, hv _ c hc]
    ring
  have hsq : towardsSide top base e 0 * towardsSide top base e 0 + towardsSide top base e 1 * towardsSide top base e 1 =
      toSideSq top (sideFace e).1 (sideFace e).2 := by
    rw [hd 0 (by decide), hd 1 (by decide)]
    unfold toSideSq; ring
  have hac : Across (towardsSide top base e) := by
    by_contra hn
    unfold Across at hn
    push Not at hn
    rw [hn.1, hn.2] at hsq
    linarith
  obtain ⟨s1, s2⟩ := Rotate.C94_azimuth hac
  have hl := Rotate.across_pos hac
  have e1 : triplePermeability top base primary orthogonal az e = some (Real.sqrt (primary * primary * (Real.cos (radians (azimuth (towardsSide top base e) - az)) * Real.cos (radians (azimuth (towardsSide top base e) - az))) +
      orthogonal * orthogonal * (Real.sin (radians (azimuth (towardsSide top base e) - az)) * Real.sin (radians (azimuth (towardsSide top base e) - az))))) := by
    unfold triplePermeability
    rw [Rotate.C94_azimuths_partial hac]
    rfl
  have hsc : Real.cos (radians (azimuth (towardsSide top base e) - az)) ^ 2 + Real.sin (radians (azimuth (towardsSide top base e) - az)) ^ 2 = 1 := by
    rw [add_comm]; exact Real.sin_sq_add_cos_sq _
  have hsum : radians (azimuth (towardsSide top base e)) = radians (azimuth (towardsSide top base e) - az) + radians az := by
    unfold radians; ring
  rw [hsum, Real.sin_add] at s1
  rw [hsum, Real.cos_add] at s2
  generalize radians (azimuth (towardsSide top base e) - az) = r at e1 hsc s1 s2
  have hnn : 0 ≤ primary * primary * (Real.cos r * Real.cos r) + orthogonal * orthogonal * (Real.sin r * Real.sin r) := by
    have := mul_nonneg (mul_self_nonneg primary) (mul_self_nonneg (Real.cos r))
    have := mul_nonneg (mul_self_nonneg orthogonal) (mul_self_nonneg (Real.sin r))
    linarith
  refine ⟨_, Real.cos r, Real.sin r, e1, Real.sqrt_nonneg _, hsc, ⟨across (towardsSide top base e), hl, ?_⟩, ?_, ?_, ?_⟩
  · rintro c (rfl | rfl)
    · rw [← hd 0 (by decide), if_pos rfl, s1]; ring
    · rw [← hd 1 (by decide), if_neg (by decide), s2]
  · rw [Real.sq_sqrt hnn]; ring
  · have hm : 0 ≤ min primary orthogonal := le_min hp ho
    refine Real.le_sqrt_of_sq_le ?_
    have m1 : min primary orthogonal ^ 2 ≤ primary ^ 2 := pow_le_pow_left₀ hm (min_le_left _ _) 2
    have m2 : min primary orthogonal ^ 2 ≤ orthogonal ^ 2 := pow_le_pow_left₀ hm (min_le_right _ _) 2
    have c0 : 0 ≤ Real.cos r ^ 2 := sq_nonneg _
    have s0 : 0 ≤ Real.sin r ^ 2 := sq_nonneg _
    calc min primary orthogonal ^ 2 = min primary orthogonal ^ 2 * (Real.cos r ^ 2 + Real.sin r ^ 2) := by rw [hsc, mul_one]
      _ ≤ primary ^ 2 * Real.cos r ^ 2 + orthogonal ^ 2 * Real.sin r ^ 2 := by
        rw [mul_add]; exact add_le_add (mul_le_mul_of_nonneg_right m1 c0) (mul_le_mul_of_nonneg_right m2 s0)
      _ = _ := by ring
  · have hm : 0 ≤ max primary orthogonal := le_max_of_le_left hp
    refine Real.sqrt_le_iff.2 ⟨hm, ?_⟩
    have m1 : primary ^ 2 ≤ max primary orthogonal ^ 2 := pow_le_pow_left₀ hp (le_max_left _ _) 2
    have m2 : orthogonal ^ 2 ≤ max primary orthogonal ^ 2 := pow_le_pow_left₀ ho (le_max_right _ _) 2
    have c0 : 0 ≤ Real.cos r ^ 2 := sq_nonneg _
    have s0 : 0 ≤ Real.sin r ^ 2 := sq_nonneg _
    calc primary * primary * (Real.cos r * Real.cos r) + orthogonal * orthogonal * (Real.sin r * Real.sin r)
        = primary ^ 2 * Real.cos r ^ 2 + orthogonal ^ 2 * Real.sin r ^ 2 := by ring
      _ ≤ max primary orthogonal ^ 2 * (Real.cos r ^ 2 + Real.sin r ^ 2) := by
        rw [mul_add]; exact add_le_add (mul_le_mul_of_nonneg_right m1 c0) (mul_le_mul_of_nonneg_right m2 s0)
      _ = max primary orthogonal ^ 2 := by rw [hsc, mul_one]

/-- a triangle with none of the distances zero -/
example : ∀ e : Fin 3, 0 < toSideSq ![![0, 0, 0], ![6, 0, 0], ![0, 12, 0]] (sideFace e).1 (sideFace e).2 := by
  intro e
  fin_cases e <;> simp [toSideSq, sideFace] <;> norm_num

/-- **C118** — violated: half cell values stored as a property of the grid are not used but raise ValueError; and grids of one layer have no
columns to work with -/
theorem C118_stored_violated : (∀ {α : Type} (realNone : Bool) (a : α) (computed : Res α), halfCellTransmissibility none true realNone (some a) computed = .error .value) ∧
    ∀ cells, columnCount 1 cells = .error .assertion := by
  refine ⟨?_, fun _ => rfl⟩
  intro α realNone a computed
  cases realNone <;> rfl

end Verif.Transmit.Prism
