import Verif.Geom.Spec
import Mathlib.LinearAlgebra.Matrix.ToLinearEquiv
import Mathlib.LinearAlgebra.Matrix.Determinant.Basic
import Mathlib.Tactic.Ring
import Mathlib.Tactic.Linarith
import Mathlib.Tactic.LinearCombination
import Mathlib.Tactic.FieldSimp

namespace Verif.Geom
variable {K : Type} [Field K] [LinearOrder K]

/-- the divisor in the intersection of a line with a triangle -/
def denomOf (v : P3 K) (tri : Tri K) : K := dot v.neg (cross (tri.b.sub tri.a) (tri.c.sub tri.a))

theorem parallel_iff (v : P3 K) (tri : Tri K) : Parallel v tri ↔ denomOf v tri = 0 := by
  have hdet : Matrix.det !![v.x, tri.b.x - tri.a.x, tri.c.x - tri.a.x; v.y, tri.b.y - tri.a.y, tri.c.y - tri.a.y;
      v.z, tri.b.z - tri.a.z, tri.c.z - tri.a.z] = - denomOf v tri := by
    rw [Matrix.det_fin_three]
    simp [denomOf, dot, cross, P3.neg, P3.sub]
    ring
  constructor
  · rintro ⟨d, e, f, hne, h1, h2, h3⟩
    rcases eq_or_ne (denomOf v tri) 0 with h | h
    · exact h
    · exfalso
      have hd : denomOf v tri * d = 0 := by
        unfold denomOf dot cross P3.neg P3.sub
        dsimp only
        linear_combination (-(tri.b.y - tri.a.y) * (tri.c.z - tri.a.z) + (tri.b.z - tri.a.z) * (tri.c.y - tri.a.y)) * h1 +
          (-(tri.b.z - tri.a.z) * (tri.c.x - tri.a.x) + (tri.b.x - tri.a.x) * (tri.c.z - tri.a.z)) * h2 +
          (-(tri.b.x - tri.a.x) * (tri.c.y - tri.a.y) + (tri.b.y - tri.a.y) * (tri.c.x - tri.a.x)) * h3
      have he : denomOf v tri * e = 0 := by
        unfold denomOf dot cross P3.neg P3.sub
        dsimp only
        linear_combination (-(tri.c.y - tri.a.y) * v.z + (tri.c.z - tri.a.z) * v.y) * h1 +
          (-(tri.c.z - tri.a.z) * v.x + (tri.c.x - tri.a.x) * v.z) * h2 +
          (-(tri.c.x - tri.a.x) * v.y + (tri.c.y - tri.a.y) * v.x) * h3
      have hf : denomOf v tri * f = 0 := by
        unfold denomOf dot cross P3.neg P3.sub
        dsimp only
        linear_combination (-v.y * (tri.b.z - tri.a.z) + v.z * (tri.b.y - tri.a.y)) * h1 +
          (-v.z * (tri.b.x - tri.a.x) + v.x * (tri.b.z - tri.a.z)) * h2 +
          (-v.x * (tri.b.y - tri.a.y) + v.y * (tri.b.x - tri.a.x)) * h3
      rcases hne with h0 | h0 | h0
      · exact h0 ((mul_eq_zero.mp hd).resolve_left h)
      · exact h0 ((mul_eq_zero.mp he).resolve_left h)
      · exact h0 ((mul_eq_zero.mp hf).resolve_left h)
  · intro h
    rw [h, neg_zero] at hdet
    obtain ⟨w, hw, h0⟩ := Matrix.exists_mulVec_eq_zero_iff.mpr hdet
    refine ⟨w 0, w 1, w 2, ?_, ?_, ?_, ?_⟩
    · by_contra hc
      push Not at hc
      apply hw
      funext i
      fin_cases i
      · exact hc.1
      · exact hc.2.1
      · exact hc.2.2
    · have := congrFun h0 0
      simp [Matrix.mulVec, dotProduct, Fin.sum_univ_three] at this
      linear_combination this
    · have := congrFun h0 1
      simp [Matrix.mulVec, dotProduct, Fin.sum_univ_three] at this
      linear_combination this
    · have := congrFun h0 2
      simp [Matrix.mulVec, dotProduct, Fin.sum_univ_three] at this
      linear_combination this

/-- a point of the line as a point of the plane -/
def Meets (p v : P3 K) (tri : Tri K) (t u w : K) : Prop :=
  p.x + t * v.x = tri.a.x + u * (tri.b.x - tri.a.x) + w * (tri.c.x - tri.a.x) ∧
  p.y + t * v.y = tri.a.y + u * (tri.b.y - tri.a.y) + w * (tri.c.y - tri.a.y) ∧
  p.z + t * v.z = tri.a.z + u * (tri.b.z - tri.a.z) + w * (tri.c.z - tri.a.z)

theorem meets_iff {p v : P3 K} {tri : Tri K} (hd : denomOf v tri ≠ 0) (t u w : K) :
    Meets p v tri t u w ↔ t = dot (cross (tri.b.sub tri.a) (tri.c.sub tri.a)) (p.sub tri.a) / denomOf v tri ∧
      u = dot (cross (tri.c.sub tri.a) v.neg) (p.sub tri.a) / denomOf v tri ∧
      w = dot (cross v.neg (tri.b.sub tri.a)) (p.sub tri.a) / denomOf v tri := by
  constructor
  · rintro ⟨h1, h2, h3⟩
    have e1 : p.x - tri.a.x = - (t * v.x) + u * (tri.b.x - tri.a.x) + w * (tri.c.x - tri.a.x) := by linear_combination h1
    have e2 : p.y - tri.a.y = - (t * v.y) + u * (tri.b.y - tri.a.y) + w * (tri.c.y - tri.a.y) := by linear_combination h2
    have e3 : p.z - tri.a.z = - (t * v.z) + u * (tri.b.z - tri.a.z) + w * (tri.c.z - tri.a.z) := by linear_combination h3
    refine ⟨?_, ?_, ?_⟩
    all_goals
      rw [eq_div_iff hd]
      simp only [denomOf, dot, cross, P3.neg, P3.sub]
      rw [e1, e2, e3]
      ring
  · rintro ⟨rfl, rfl, rfl⟩
    refine ⟨?_, ?_, ?_⟩
    all_goals
      field_simp
      simp only [denomOf, dot, cross, P3.neg, P3.sub]
      ring

theorem lineTriangle_iff (p v : P3 K) (tri : Tri K) (segment : Bool) (lTol tTol : K) (q : P3 K) :
    lineTriangle p v tri segment lTol tTol = some q ↔ denomOf v tri ≠ 0 ∧ ∃ t u w, Meets p v tri t u w ∧
      (segment = true → -lTol ≤ t ∧ t ≤ 1 + lTol) ∧ -tTol ≤ u ∧ u ≤ 1 + tTol ∧ -tTol ≤ w ∧ u + w ≤ 1 + tTol ∧ q = p.along t v := by
  unfold lineTriangle
  dsimp only
  rw [show dot v.neg (cross (tri.b.sub tri.a) (tri.c.sub tri.a)) = denomOf v tri from rfl]
  simp only [zero_sub]
  by_cases hd : denomOf v tri = 0
  · rw [if_pos hd]
    exact ⟨fun h => (by cases h), fun h => absurd hd h.1⟩
  rw [if_neg hd]
  constructor
  · intro h
    refine ⟨hd, _, _, _, (meets_iff hd _ _ _).mpr ⟨rfl, rfl, rfl⟩, ?_⟩
    split at h
    · cases h
    rename_i h1
    split at h
    · cases h
    rename_i h2
    split at h
    · cases h
    rename_i h3
    rw [not_or, not_lt, gt_iff_lt, not_lt] at h2 h3
    refine ⟨?_, h2.1, h2.2, h3.1, h3.2, (Option.some.inj h).symm⟩
    intro hs
    rw [not_and, not_or, not_lt, gt_iff_lt, not_lt] at h1
    exact h1 hs
  · rintro ⟨-, t, u, w, hm, h1, h2, h3, h4, h5, rfl⟩
    obtain ⟨e1, e2, e3⟩ := (meets_iff hd t u w).mp hm
    rw [← e1, ← e2, ← e3, if_neg, if_neg, if_neg]
    · rw [not_or, not_lt, gt_iff_lt, not_lt]; exact ⟨h4, h5⟩
    · rw [not_or, not_lt, gt_iff_lt, not_lt]; exact ⟨h2, h3⟩
    · rintro ⟨hs, hc⟩
      have := h1 hs
      rcases hc with hc | hc
      · exact absurd hc (not_lt.mpr this.1)
      · exact absurd hc (not_lt.mpr this.2)

end Verif.Geom
