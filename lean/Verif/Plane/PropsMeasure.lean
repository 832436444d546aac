import Verif.Plane.Measure
import Verif.Polygon.Spec
import Verif.Rotate.Props
import Verif.Geom.PropsPlane

/-!
# C113: area, normal and circumcentre of triangles
-/

namespace Verif.Plane
open Verif.Py Verif.Polygon
open Verif.Wells.Survey (V3)
open Verif.Rotate (unitVector length azimuth)

theorem heron_of_squares {la lb lc q : ℝ}
    (h : 2 * (la * la) * (lb * lb) + 2 * (lb * lb) * (lc * lc) + 2 * (lc * lc) * (la * la) - (la * la) * (la * la) -
      (lb * lb) * (lb * lb) - (lc * lc) * (lc * lc) = 4 * (q * q)) (hq : 0 ≤ q) : heron la lb lc = q / 2 := by
  unfold heron
  dsimp only
  have e : 1 / 2 * (la + lb + lc) * (1 / 2 * (la + lb + lc) - la) * (1 / 2 * (la + lb + lc) - lb) * (1 / 2 * (la + lb + lc) - lc) =
      (q / 2) * (q / 2) := by
    have : 1 / 2 * (la + lb + lc) * (1 / 2 * (la + lb + lc) - la) * (1 / 2 * (la + lb + lc) - lb) * (1 / 2 * (la + lb + lc) - lc) =
      (2 * (la * la) * (lb * lb) + 2 * (lb * lb) * (lc * lc) + 2 * (lc * lc) * (la * la) - (la * la) * (la * la) -
      (lb * lb) * (lb * lb) - (lc * lc) * (lc * lc)) / 16 := by ring
    rw [this, h]; ring
  rw [e, Real.sqrt_mul_self (by linarith)]

theorem length_mul (v : V3) : length v * length v = v 0 * v 0 + v 1 * v 1 + v 2 * v 2 := by
  unfold length
  rw [Real.mul_self_sqrt]
  · rfl
  · unfold Rotate.dot; nlinarith [mul_self_nonneg (v 0), mul_self_nonneg (v 1), mul_self_nonneg (v 2)]

theorem length2d_mul (v : V3) : length2d v * length2d v = v 0 * v 0 + v 1 * v 1 := by
  unfold length2d
  rw [Real.mul_self_sqrt]
  nlinarith [mul_self_nonneg (v 0), mul_self_nonneg (v 1)]

theorem length_nonneg (v : V3) : 0 ≤ length v := Real.sqrt_nonneg _

/-- The area of a triangle is half the length of the vector product of two sides, also for triangles without area. -/
theorem C113_area (a b c : V3) : areaOfTriangle a b c = length (cross3 (b - a) (c - a)) / 2 := by
  unfold areaOfTriangle
  refine heron_of_squares ?_ (length_nonneg _)
  simp only [length_mul, cross3, Pi.sub_apply, Matrix.cons_val_zero, Matrix.cons_val_one, Matrix.cons_val]
  ring

/-- The areas for many triangles: half the length of the vector product of two sides; or, when projected, half the size
of the signed area of the corners without their z values. -/
theorem C113_areas (tris : List (V3 × V3 × V3)) :
    areaOfTriangles tris false = tris.map (fun t => length (cross3 (t.2.1 - t.1) (t.2.2 - t.1)) / 2) ∧
    areaOfTriangles tris true =
      tris.map (fun t => |orient ⟨t.1 0, t.1 1⟩ ⟨t.2.1 0, t.2.1 1⟩ ⟨t.2.2 0, t.2.2 1⟩| / 2) := by
  constructor
  · unfold areaOfTriangles
    refine List.map_congr_left fun t _ => ?_
    rw [if_neg (by simp)]
    exact C113_area t.1 t.2.1 t.2.2
  · unfold areaOfTriangles
    refine List.map_congr_left fun t _ => ?_
    rw [if_pos rfl]
    refine heron_of_squares ?_ (abs_nonneg _)
    rw [abs_mul_abs_self]
    simp only [length2d_mul, orient, Pi.sub_apply]
    ring

/-- the corners are in line -/
def InLine (a b c : V3) : Prop := cross3 (a - b) (a - c) = 0

theorem length_zero (v : V3) : length v = 0 ↔ v = 0 := by
  constructor
  · intro h
    have h1 := length_mul v
    rw [h, mul_zero] at h1
    funext i
    fin_cases i
    · have : v 0 * v 0 = 0 := by nlinarith [mul_self_nonneg (v 0), mul_self_nonneg (v 1), mul_self_nonneg (v 2)]
      simpa using this
    · have : v 1 * v 1 = 0 := by nlinarith [mul_self_nonneg (v 0), mul_self_nonneg (v 1), mul_self_nonneg (v 2)]
      simpa using this
    · have : v 2 * v 2 = 0 := by nlinarith [mul_self_nonneg (v 0), mul_self_nonneg (v 1), mul_self_nonneg (v 2)]
      simpa using this
  · rintro rfl
    unfold length Rotate.dot
    simp

/-- The normal of a triangle whose corners are not in line has length one and is at right angles to its sides; both
versions return it.  For corners in line it is the zero vector, or not-a-number from the other version. -/
theorem C113_normal (a b c : V3) :
    (¬ InLine a b c → length (normalVector a b c) = 1 ∧ Rotate.dot (normalVector a b c) (b - a) = 0 ∧
      Rotate.dot (normalVector a b c) (c - a) = 0 ∧ Rotate.dot (normalVector a b c) (c - b) = 0 ∧
      normalVectorNumba a b c = some (normalVector a b c)) ∧
    (InLine a b c → normalVector a b c = 0 ∧ normalVectorNumba a b c = none) := by
  constructor
  · intro h
    have h0 : length (cross3 (a - b) (a - c)) ≠ 0 := fun hc => h ((length_zero _).1 hc)
    have hn : normalVector a b c = (1 / length (cross3 (a - b) (a - c))) • cross3 (a - b) (a - c) := by
      unfold normalVector unitVector
      rw [if_neg h0]
    refine ⟨?_, ?_, ?_, ?_, ?_⟩
    · have h1 := length_mul (normalVector a b c)
      have h2 : length (normalVector a b c) * length (normalVector a b c) = 1 := by
        rw [h1, hn]
        have h3 := length_mul (cross3 (a - b) (a - c))
        simp only [Pi.smul_apply, smul_eq_mul]
        field_simp
        linear_combination (-1) * h3
      nlinarith [length_nonneg (normalVector a b c)]
    · rw [hn]; unfold Rotate.dot cross3
      simp only [Pi.smul_apply, smul_eq_mul, Pi.sub_apply, Matrix.cons_val_zero, Matrix.cons_val_one, Matrix.cons_val]; ring
    · rw [hn]; unfold Rotate.dot cross3
      simp only [Pi.smul_apply, smul_eq_mul, Pi.sub_apply, Matrix.cons_val_zero, Matrix.cons_val_one, Matrix.cons_val]; ring
    · rw [hn]; unfold Rotate.dot cross3
      simp only [Pi.smul_apply, smul_eq_mul, Pi.sub_apply, Matrix.cons_val_zero, Matrix.cons_val_one, Matrix.cons_val]; ring
    · rw [hn]; unfold normalVectorNumba; dsimp only; rw [if_neg h0]
  · intro h
    have h0 : length (cross3 (a - b) (a - c)) = 0 := (length_zero _).2 h
    refine ⟨?_, ?_⟩
    · unfold normalVector unitVector; rw [if_pos h0]; exact h
    · unfold normalVectorNumba; dsimp only; rw [if_pos h0]

/-- square of the distance between points of the plane -/
def away (o : ℝ × ℝ) (p : Pt ℝ) : ℝ := (o.1 - p.x) * (o.1 - p.x) + (o.2 - p.y) * (o.2 - p.y)

/-- The centre of the circumcircle is found exactly when the points are not in line, and is the one point at the same
distance from all three. -/
theorem C113_circumcentre (a b c : Pt ℝ) :
    (orient a b c = 0 → circumcentre a b c = none) ∧
    (orient a b c ≠ 0 → ∃ o, circumcentre a b c = some o ∧ ∀ q : ℝ × ℝ, (away q a = away q b ∧ away q b = away q c) ↔ q = o) := by
  have hdiv : (1 / 2 * (a.x + b.x) - (1 / 2 * (a.x + b.x) + (b.y - a.y))) * (1 / 2 * (a.y + c.y) - (1 / 2 * (a.y + c.y) - (c.x - a.x))) -
      (1 / 2 * (a.y + b.y) - (1 / 2 * (a.y + b.y) - (b.x - a.x))) * (1 / 2 * (a.x + c.x) - (1 / 2 * (a.x + c.x) + (c.y - a.y))) =
      orient a b c := by unfold orient; ring
  constructor
  · intro h
    unfold circumcentre Geom.lineLine
    dsimp only
    rw [if_pos (by rw [hdiv]; exact h)]
  · intro h
    unfold circumcentre Geom.lineLine
    dsimp only
    rw [hdiv, if_neg h, if_neg (by simp)]
    refine ⟨_, rfl, ?_⟩
    intro q
    have hx : ∀ q : ℝ × ℝ, away q a = away q b ↔ 2 * (q.1 * (b.x - a.x) + q.2 * (b.y - a.y)) = b.x * b.x + b.y * b.y - a.x * a.x - a.y * a.y := by
      intro q; unfold away; constructor <;> intro hh <;> linarith
    have hy : ∀ q : ℝ × ℝ, away q a = away q c ↔ 2 * (q.1 * (c.x - a.x) + q.2 * (c.y - a.y)) = c.x * c.x + c.y * c.y - a.x * a.x - a.y * a.y := by
      intro q; unfold away; constructor <;> intro hh <;> linarith
    have hor : orient a b c = (b.x - a.x) * (c.y - a.y) - (b.y - a.y) * (c.x - a.x) := rfl
    have hiff : (away q a = away q b ∧ away q b = away q c) ↔ (away q a = away q b ∧ away q a = away q c) := by
      constructor
      · rintro ⟨h1, h2⟩; exact ⟨h1, h1.trans h2⟩
      · rintro ⟨h1, h2⟩; exact ⟨h1, h1.symm.trans h2⟩
    rw [hiff, hx, hy]
    constructor
    · rintro ⟨h1, h2⟩
      refine Prod.ext ?_ ?_
      · show q.1 = _
        rw [eq_div_iff h, hor]
        linear_combination (c.y - a.y) / 2 * h1 - (b.y - a.y) / 2 * h2
      · show q.2 = _
        rw [eq_div_iff h, hor]
        linear_combination (b.x - a.x) / 2 * h2 - (c.x - a.x) / 2 * h1
    · rintro rfl
      dsimp only
      have h' := h
      rw [hor] at h'
      constructor
      · rw [hor]; field_simp; ring
      · rw [hor]; field_simp; ring

example : circumcentre ⟨0, 0⟩ ⟨4, 0⟩ ⟨0, 2⟩ = some (2, 1) := by
  unfold circumcentre Geom.lineLine
  norm_num

example : areaOfTriangle ![0, 0, 0] ![3, 0, 0] ![0, 4, 0] = 6 := by
  rw [C113_area]
  have : length (cross3 (![3, 0, 0] - ![0, 0, 0]) (![0, 4, 0] - ![0, 0, 0])) = 12 := by
    have h := length_mul (cross3 (![3, 0, 0] - ![0, 0, 0]) (![0, 4, 0] - ![0, 0, 0]))
    simp [cross3] at h
    have h2 := length_nonneg (cross3 (![3, 0, 0] - ![0, 0, 0]) (![0, 4, 0] - ![0, 0, 0]))
    simp [cross3] at h2 ⊢
    nlinarith
  rw [this]; norm_num

end Verif.Plane
