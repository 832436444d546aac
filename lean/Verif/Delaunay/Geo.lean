import Verif.Delaunay.Spec
import Mathlib.Tactic.Ring
import Mathlib.Tactic.Linarith
import Mathlib.Tactic.LinearCombination
import Mathlib.Tactic.FieldSimp
import Mathlib.Tactic.FinCases

/-! # Circles through two and three points -/

namespace Verif.Delaunay
open Verif.Polygon (Pt orient)

variable {K : Type} [Field K] [LinearOrder K]

/-- the dot product of the vectors to a point from two others: negative within the circle on the two as diameter -/
def mdot (a b x : Pt K) : K := (x.x - a.x) * (x.x - b.x) + (x.y - a.y) * (x.y - b.y)

theorem clockwise_eq (a b c : Pt K) : clockwise a b c = -orient a b c := by unfold clockwise orient; ring

theorem circumDet_eq (a b c d : Pt K) : circumDet a b c d = orient a b d * mdot a b c - orient a b c * mdot a b d := by
  unfold circumDet determinant lifted orient mdot
  ring

theorem circumDet_cyc (a b c d : Pt K) : circumDet b c a d = circumDet a b c d := by
  unfold circumDet determinant lifted
  ring

theorem circumDet_swap (a b c d : Pt K) : circumDet b a d c = circumDet a b c d := by
  unfold circumDet determinant lifted
  ring

theorem orient_cyc (a b c : Pt K) : orient b c a = orient a b c := by unfold orient; ring
theorem orient_swap (a b c : Pt K) : orient b a c = -orient a b c := by unfold orient; ring
theorem mdot_swap (a b x : Pt K) : mdot b a x = mdot a b x := by unfold mdot; ring

theorem orient_sum (a b c q : Pt K) : orient a b q + orient b c q + orient c a q = orient a b c := by unfold orient; ring

section
variable [IsStrictOrderedRing K]

/-- the sign of the determinant tells whether a point is within the circumcircle of an anticlockwise triangle -/
theorem insideCircle_iff {a b c : Pt K} (h : 0 < orient a b c) (d : Pt K) : InsideCircle a b c d ↔ 0 < circumDet a b c d := by
  have key : ∀ o : Pt K, dist2 o a = dist2 o b → dist2 o b = dist2 o c → circumDet a b c d = orient a b c * (dist2 o a - dist2 o d) := by
    intro o h1 h2
    have e : circumDet a b c d - orient a b c * (dist2 o a - dist2 o d) =
        (orient c a d) * (dist2 o b - dist2 o a) + (orient a b d) * (dist2 o c - dist2 o a) := by
      unfold circumDet determinant lifted dist2 orient
      ring
    rw [← h2, ← h1, sub_self, mul_zero, mul_zero, add_zero] at e
    linarith
  constructor
  · rintro ⟨o, h1, h2, h3⟩
    rw [key o h1 h2]
    exact mul_pos h (by linarith)
  · intro hd
    have hne : orient a b c ≠ 0 := h.ne'
    let o : Pt K := ⟨a.x + ((c.y - a.y) * dist2 b a - (b.y - a.y) * dist2 c a) / (2 * orient a b c),
      a.y + ((b.x - a.x) * dist2 c a - (c.x - a.x) * dist2 b a) / (2 * orient a b c)⟩
    have e1 : dist2 o a = dist2 o b := by
      simp only [o, dist2]
      field_simp
      unfold orient
      ring
    have e2 : dist2 o b = dist2 o c := by
      simp only [o, dist2]
      field_simp
      unfold orient
      ring
    refine ⟨o, e1, e2, ?_⟩
    rw [key o e1 e2] at hd
    have := (mul_pos_iff_of_pos_left h).mp hd
    linarith

theorem within_iff {a b c : Pt K} (h : 0 < orient a b c) (d : Pt K) :
    Within a b c d ↔ 0 < orient a b d ∧ 0 < orient b c d ∧ 0 < orient c a d := by
  constructor
  · rintro ⟨u, v, w, hu, hv, hw, hs, hx, hy⟩
    have hu' : u = 1 - v - w := by linarith
    have e1 : orient a b d = w * orient a b c := by unfold orient; rw [hx, hy, hu']; ring
    have e2 : orient b c d = u * orient a b c := by unfold orient; rw [hx, hy, hu']; ring
    have e3 : orient c a d = v * orient a b c := by unfold orient; rw [hx, hy, hu']; ring
    rw [e1, e2, e3]
    exact ⟨mul_pos hw h, mul_pos hu h, mul_pos hv h⟩
  · rintro ⟨h1, h2, h3⟩
    have hs := orient_sum a b c d
    have hne : orient a b c ≠ 0 := h.ne'
    refine ⟨orient b c d / orient a b c, orient c a d / orient a b c, orient a b d / orient a b c, div_pos h2 h, div_pos h3 h, div_pos h1 h, ?_, ?_, ?_⟩
    · rw [← add_div, ← add_div, div_eq_one_iff_eq hne]
      linarith
    · field_simp
      unfold orient
      ring
    · field_simp
      unfold orient
      ring

/-- circles through two points, on the side of the third: a circle through a point within another is within it -/
theorem pencil_in {a b c q v : Pt K} (hc : 0 < orient a b c) (hq : 0 ≤ orient a b q) (hv : 0 ≤ orient a b v)
    (iq : 0 ≤ circumDet a b c q) (iv : circumDet a b c v ≤ 0) : circumDet a b q v ≤ 0 := by
  rw [circumDet_eq] at iq iv ⊢
  have h1 := mul_le_mul_of_nonneg_left (sub_nonneg.mp iq) hv
  have h2 := mul_le_mul_of_nonneg_left (sub_nonpos.mp iv) hq
  by_contra hn
  push Not at hn
  have h3 := mul_pos hc hn
  nlinarith

/-- on the other side, it is within one which does not contain the point -/
theorem pencil_out {x y d q v : Pt K} (hd : 0 < orient y x d) (hq : 0 ≤ orient x y q) (hv : orient x y v ≤ 0)
    (iq : circumDet y x d q ≤ 0) (iv : circumDet y x d v ≤ 0) : circumDet x y q v ≤ 0 := by
  rw [circumDet_eq] at iq iv ⊢
  rw [orient_swap x y, orient_swap x y, mdot_swap x y, mdot_swap x y] at iq iv
  rw [orient_swap x y] at hd
  have h1 := mul_le_mul_of_nonneg_left (sub_nonpos.mp iq) (neg_nonneg.mpr hv)
  have h2 := mul_le_mul_of_nonneg_left (sub_nonpos.mp iv) hq
  by_contra hn
  push Not at hn
  have h3 := mul_pos hd hn
  nlinarith

/-- two triangles on an edge which is locally right: if a point is within the first circle and not in the second it is on the side of the first -/
theorem pencil_side {a b c d q : Pt K} (hc : 0 < orient a b c) (hd : 0 < orient b a d) (hl : circumDet a b c d ≤ 0)
    (iq : 0 < circumDet a b c q) (iq' : circumDet b a d q ≤ 0) : 0 < orient a b q := by
  rw [circumDet_eq] at hl iq iq'
  rw [orient_swap a b, orient_swap a b, mdot_swap a b, mdot_swap a b] at iq'
  rw [orient_swap a b] at hd
  by_contra hn
  push Not at hn
  have h1 := mul_lt_mul_of_pos_left (sub_pos.mp iq) hd
  have h2 := mul_le_mul_of_nonneg_left (sub_nonpos.mp hl) (neg_nonneg.mpr hn)
  have h3 := mul_le_mul_of_nonneg_left (sub_nonpos.mp iq') hc.le
  nlinarith

theorem flip_aux {a b c d : Pt K} (hc : 0 ≤ orient a b c) (hd : 0 < orient b a d) (hi : 0 < circumDet a b c d) : 0 < orient a d c := by
  by_contra hn
  push Not at hn
  have e : orient b a d * circumDet a b c d = orient b a d * (orient a d c * dist2 b a - orient a b c * dist2 d a) -
      ((orient a d c * (b.x - a.x) - orient a b c * (d.x - a.x)) * (orient a d c * (b.x - a.x) - orient a b c * (d.x - a.x)) +
       (orient a d c * (b.y - a.y) - orient a b c * (d.y - a.y)) * (orient a d c * (b.y - a.y) - orient a b c * (d.y - a.y))) := by
    unfold circumDet determinant lifted orient dist2
    ring
  have h1 : 0 ≤ dist2 b a := add_nonneg (mul_self_nonneg _) (mul_self_nonneg _)
  have h2 : 0 ≤ dist2 d a := add_nonneg (mul_self_nonneg _) (mul_self_nonneg _)
  have h3 := mul_nonneg (neg_nonneg.mpr hn) h1
  have h4 := mul_nonneg hc h2
  have h5 := mul_nonneg hd.le (add_nonneg h3 h4)
  have h6 := mul_pos hd hi
  have h7 := mul_self_nonneg (orient a d c * (b.x - a.x) - orient a b c * (d.x - a.x))
  have h8 := mul_self_nonneg (orient a d c * (b.y - a.y) - orient a b c * (d.y - a.y))
  nlinarith

theorem flip_aux' {a b c d : Pt K} (hc : 0 ≤ orient a b c) (hd : 0 < orient b a d) (hi : 0 < circumDet a b c d) : 0 < orient d b c := by
  by_contra hn
  push Not at hn
  have e : orient b a d * circumDet a b c d = orient b a d * (orient d b c * dist2 a b - orient a b c * dist2 d b) -
      ((orient d b c * (a.x - b.x) - orient a b c * (d.x - b.x)) * (orient d b c * (a.x - b.x) - orient a b c * (d.x - b.x)) +
       (orient d b c * (a.y - b.y) - orient a b c * (d.y - b.y)) * (orient d b c * (a.y - b.y) - orient a b c * (d.y - b.y))) := by
    unfold circumDet determinant lifted orient dist2
    ring
  have h1 : 0 ≤ dist2 a b := add_nonneg (mul_self_nonneg _) (mul_self_nonneg _)
  have h2 : 0 ≤ dist2 d b := add_nonneg (mul_self_nonneg _) (mul_self_nonneg _)
  have h3 := mul_nonneg (neg_nonneg.mpr hn) h1
  have h4 := mul_nonneg hc h2
  have h5 := mul_nonneg hd.le (add_nonneg h3 h4)
  have h6 := mul_pos hd hi
  have h7 := mul_self_nonneg (orient d b c * (a.x - b.x) - orient a b c * (d.x - b.x))
  have h8 := mul_self_nonneg (orient d b c * (a.y - b.y) - orient a b c * (d.y - b.y))
  nlinarith

/-- two anticlockwise triangles on an edge, with the far corner of one within the circle of the other, form a convex quadrilateral -/
theorem flip_pos {a b c d : Pt K} (hc : 0 ≤ orient a b c) (hd : 0 ≤ orient b a d) (hi : 0 < circumDet a b c d) :
    0 < orient a d c ∧ 0 < orient b c d := by
  rcases hd.lt_or_eq with hd | hd
  · refine ⟨flip_aux hc hd hi, ?_⟩
    rw [orient_cyc]
    exact flip_aux' hc hd hi
  · rcases hc.lt_or_eq with hc | hc
    · have hi' : 0 < circumDet b a d c := by rw [circumDet_swap]; exact hi
      refine ⟨?_, flip_aux hd.le hc hi'⟩
      rw [orient_cyc]
      exact flip_aux' hd.le hc hi'
    · exfalso
      rw [circumDet_eq, ← hc] at hi
      have : orient a b d = 0 := by rw [orient_swap] at hd; linarith
      rw [this] at hi
      simp at hi

end

end Verif.Delaunay
