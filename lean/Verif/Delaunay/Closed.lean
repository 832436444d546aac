import Verif.Delaunay.Wind

/-! # Points in closed triangles -/

namespace Verif.Delaunay
open Verif.Polygon (Pt orient)

variable {K : Type} [Field K] [LinearOrder K] [IsStrictOrderedRing K]

theorem pt_ext {a b : Pt K} (hx : a.x = b.x) (hy : a.y = b.y) : a = b := by
  cases a
  cases b
  simp_all

theorem dist2_pos {a b : Pt K} (h : a ≠ b) : 0 < dist2 a b := by
  unfold dist2
  by_cases hx : a.x = b.x
  · have hy : a.y ≠ b.y := fun e => h (pt_ext hx e)
    have := mul_self_pos.mpr (sub_ne_zero.mpr hy)
    have := mul_self_nonneg (a.x - b.x)
    linarith
  · have := mul_self_pos.mpr (sub_ne_zero.mpr hx)
    have := mul_self_nonneg (a.y - b.y)
    linarith

theorem bary_x (a b c q : Pt K) : orient a b c * (q.x - a.x) = orient c a q * (b.x - a.x) + orient a b q * (c.x - a.x) := by unfold orient; ring
theorem bary_y (a b c q : Pt K) : orient a b c * (q.y - a.y) = orient c a q * (b.y - a.y) + orient a b q * (c.y - a.y) := by unfold orient; ring

/-- on two of the edges means at a corner -/
theorem at_corner {a b c q : Pt K} (h : 0 < orient a b c) (h1 : orient c a q = 0) (h2 : orient a b q = 0) : q = a := by
  have hx := bary_x a b c q
  have hy := bary_y a b c q
  rw [h1, h2, zero_mul, zero_mul, add_zero] at hx hy
  exact pt_ext (sub_eq_zero.mp ((mul_eq_zero.mp hx).resolve_left h.ne')) (sub_eq_zero.mp ((mul_eq_zero.mp hy).resolve_left h.ne'))

theorem circ_bary (a b c q : Pt K) : orient a b c * circumDet a b c q =
    orient b c q * orient c a q * dist2 a b + orient c a q * orient a b q * dist2 b c + orient a b q * orient b c q * dist2 c a := by
  unfold circumDet determinant lifted orient dist2
  ring

theorem dist2_nonneg (a b : Pt K) : 0 ≤ dist2 a b := add_nonneg (mul_self_nonneg _) (mul_self_nonneg _)

/-- a closed triangle is within its circle -/
theorem closed_circ {a b c q : Pt K} (h : 0 < orient a b c) (h1 : 0 ≤ orient a b q) (h2 : 0 ≤ orient b c q) (h3 : 0 ≤ orient c a q) :
    0 ≤ circumDet a b c q := by
  have e := circ_bary a b c q
  have k1 := mul_nonneg (mul_nonneg h2 h3) (dist2_nonneg a b)
  have k2 := mul_nonneg (mul_nonneg h3 h1) (dist2_nonneg b c)
  have k3 := mul_nonneg (mul_nonneg h1 h2) (dist2_nonneg c a)
  by_contra hn
  push Not at hn
  have := mul_neg_of_pos_of_neg h hn
  linarith

theorem sides_ne {a b c : Pt K} (h : 0 < orient a b c) : a ≠ b ∧ b ≠ c ∧ c ≠ a := by
  refine ⟨?_, ?_, ?_⟩ <;> rintro rfl <;> · unfold orient at h; ring_nf at h; exact lt_irrefl _ h

/-- and strictly so except at the corners -/
theorem closed_circ_pos {a b c q : Pt K} (h : 0 < orient a b c) (h1 : 0 ≤ orient a b q) (h2 : 0 ≤ orient b c q) (h3 : 0 ≤ orient c a q)
    (na : q ≠ a) (nb : q ≠ b) (nc : q ≠ c) : 0 < circumDet a b c q := by
  have e := circ_bary a b c q
  obtain ⟨s1, s2, s3⟩ := sides_ne h
  have d1 := dist2_pos s1
  have d2 := dist2_pos s2
  have d3 := dist2_pos s3
  have hb : 0 < orient b c a := by rw [orient_cyc]; exact h
  have hc : 0 < orient c a b := by rw [orient_cyc]; exact hb
  have k1 := mul_nonneg (mul_nonneg h2 h3) d1.le
  have k2 := mul_nonneg (mul_nonneg h3 h1) d2.le
  have k3 := mul_nonneg (mul_nonneg h1 h2) d3.le
  have hp : 0 < orient a b c * circumDet a b c q := by
    rw [e]
    rcases h1.lt_or_eq with h1 | h1 <;> rcases h2.lt_or_eq with h2 | h2 <;> rcases h3.lt_or_eq with h3 | h3
    · have := mul_pos (mul_pos h2 h3) d1; linarith
    · have := mul_pos (mul_pos h1 h2) d3; linarith
    · have := mul_pos (mul_pos h3 h1) d2; linarith
    · exact absurd (at_corner hc h2.symm h3.symm) nc
    · have := mul_pos (mul_pos h2 h3) d1; linarith
    · exact absurd (at_corner h h3.symm h1.symm) na
    · exact absurd (at_corner hb h1.symm h2.symm) nb
    · exact absurd (at_corner h h3.symm h1.symm) na
  exact (mul_pos_iff_of_pos_left h).mp hp

/-- on an edge, between its ends -/
theorem closed_edge {a b c q : Pt K} (h : 0 < orient a b c) (h1 : orient a b q = 0) (h2 : 0 ≤ orient b c q) (h3 : 0 ≤ orient c a q)
    (na : q ≠ a) (nb : q ≠ b) : 0 < orient b c q ∧ 0 < orient c a q ∧ mdot a b q < 0 := by
  have hb : 0 < orient b c a := by rw [orient_cyc]; exact h
  have h2' : 0 < orient b c q := by
    rcases h2.lt_or_eq with h2 | h2
    · exact h2
    · exact absurd (at_corner hb h1 h2.symm) nb
  have h3' : 0 < orient c a q := by
    rcases h3.lt_or_eq with h3 | h3
    · exact h3
    · exact absurd (at_corner h h3.symm h1) na
  refine ⟨h2', h3', ?_⟩
  have e : orient a b c * orient a b c * mdot a b q = -(orient b c q * orient c a q * dist2 a b) + orient a b q *
      (orient a b q * ((c.x - a.x) * (c.x - b.x) + (c.y - a.y) * (c.y - b.y)) + orient c a q * ((b.x - a.x) * (c.x - b.x) + (b.y - a.y) * (c.y - b.y)) -
        orient b c q * ((b.x - a.x) * (c.x - a.x) + (b.y - a.y) * (c.y - a.y))) := by
    unfold orient mdot dist2
    ring
  rw [h1, zero_mul, add_zero] at e
  have k := mul_pos (mul_pos h2' h3') (dist2_pos (sides_ne h).1)
  by_contra hn
  push Not at hn
  have := mul_nonneg (mul_pos h h).le hn
  linarith

/-- between the ends of an edge is in the closed triangle -/
theorem between_pos {a b c q : Pt K} (h : 0 < orient a b c) (h1 : orient a b q = 0) (hm : mdot a b q < 0) : 0 < orient b c q ∧ 0 < orient c a q := by
  have e : orient a b c * orient a b c * mdot a b q = -(orient b c q * orient c a q * dist2 a b) + orient a b q *
      (orient a b q * ((c.x - a.x) * (c.x - b.x) + (c.y - a.y) * (c.y - b.y)) + orient c a q * ((b.x - a.x) * (c.x - b.x) + (b.y - a.y) * (c.y - b.y)) -
        orient b c q * ((b.x - a.x) * (c.x - a.x) + (b.y - a.y) * (c.y - a.y))) := by
    unfold orient mdot dist2
    ring
  rw [h1, zero_mul, add_zero] at e
  have hs := orient_sum a b c q
  rw [h1, zero_add] at hs
  have hd := dist2_pos (sides_ne h).1
  have hneg := mul_neg_of_pos_of_neg (mul_pos h h) hm
  have hp : 0 < orient b c q * orient c a q := by
    by_contra hn
    push Not at hn
    have := mul_nonpos_of_nonpos_of_nonneg hn hd.le
    linarith
  rcases pos_and_pos_or_neg_and_neg_of_mul_pos hp with h' | ⟨h1, h2⟩
  · exact h'
  · exfalso
    linarith

/-! ## Turns around a point on an edge -/

theorem turn_zero {q r a b : Pt K} (h : orient a b q = 0) : turn q r a b = 0 := by
  unfold turn
  rw [if_neg (fun hn : leftOf q r a ≤ 0 ∧ 0 < leftOf q r b ∧ 0 < orient a b q => absurd h hn.2.2.ne'),
    if_neg (fun hn : leftOf q r b ≤ 0 ∧ 0 < leftOf q r a ∧ orient a b q < 0 => absurd h hn.2.2.ne)]
  rfl

theorem half_up {q r a b c : Pt K} (h1 : orient a b q = 0) (h2 : 0 < orient b c q) (h3 : 0 < orient c a q) (ha : 0 < leftOf q r a) :
    turn3 q r a b c = 1 ∧ leftOf q r b < 0 := by
  have hl := leftOf_sum q r a b c
  rw [h1, zero_mul, zero_add] at hl
  have hb : leftOf q r b < 0 := by
    by_contra hn
    push Not at hn
    have := mul_pos h2 ha
    have := mul_nonneg h3.le hn
    linarith
  refine ⟨?_, hb⟩
  unfold turn3
  rw [turn_zero h1]
  rcases le_or_gt (leftOf q r c) 0 with hc | hc
  · rw [turn_same ⟨fun _ => hc, fun _ => hb.le⟩, turn_up hc ha, if_pos h3]
    rfl
  · rw [turn_up hb.le hc, if_pos h2, turn_same ⟨fun hn => absurd hn (not_le.mpr hc), fun hn => absurd hn (not_le.mpr ha)⟩]
    rfl

theorem half_down {q r a b c : Pt K} (h1 : orient a b q = 0) (h2 : 0 < orient b c q) (h3 : 0 < orient c a q) (ha : leftOf q r a < 0) :
    turn3 q r a b c = 0 ∧ 0 < leftOf q r b := by
  have hl := leftOf_sum q r a b c
  rw [h1, zero_mul, zero_add] at hl
  have hb : 0 < leftOf q r b := by
    by_contra hn
    push Not at hn
    have := mul_neg_of_pos_of_neg h2 ha
    have := mul_nonpos_of_nonneg_of_nonpos h3.le hn
    linarith
  refine ⟨?_, hb⟩
  unfold turn3
  rw [turn_zero h1]
  rcases le_or_gt (leftOf q r c) 0 with hc | hc
  · rw [turn_down hb hc, if_neg (not_lt.mpr h2.le), turn_same ⟨fun _ => ha.le, fun _ => hc⟩]
    rfl
  · rw [turn_same ⟨fun hn => absurd hn (not_le.mpr hb), fun hn => absurd hn (not_le.mpr hc)⟩, turn_down hc ha.le, if_neg (not_lt.mpr h3.le)]
    rfl

theorem half_flat {q r a b c : Pt K} (h1 : orient a b q = 0) (h2 : 0 < orient b c q) (h3 : 0 < orient c a q) (ha : leftOf q r a = 0) :
    turn3 q r a b c = (if 0 < leftOf q r c then 1 else 0) ∧ leftOf q r b = 0 := by
  have hl := leftOf_sum q r a b c
  rw [h1, zero_mul, zero_add, ha, mul_zero, zero_add] at hl
  have hb : leftOf q r b = 0 := (mul_eq_zero.mp hl).resolve_left h3.ne'
  refine ⟨?_, hb⟩
  unfold turn3
  rw [turn_zero h1]
  rcases le_or_gt (leftOf q r c) 0 with hc | hc
  · rw [turn_same ⟨fun _ => hc, fun _ => hb.le⟩, turn_same ⟨fun _ => ha.le, fun _ => hc⟩, if_neg (not_lt.mpr hc)]
    rfl
  · rw [turn_up hb.le hc, if_pos h2, turn_down hc ha.le, if_neg (not_lt.mpr h3.le), if_pos hc]
    rfl

/-- two triangles on either side of an edge through the point: it counts once -/
theorem turn3_pair {q r a b c d : Pt K} (h1 : orient a b q = 0) (h2 : 0 < orient b c q) (h3 : 0 < orient c a q)
    (k2 : 0 < orient a d q) (k3 : 0 < orient d b q) (hr : r.x ≠ 0 ∨ r.y ≠ 0) : turn3 q r a b c + turn3 q r b a d = 1 := by
  have k1 : orient b a q = 0 := by rw [orient_swap, h1, neg_zero]
  rcases lt_trichotomy (leftOf q r a) 0 with ha | ha | ha
  · obtain ⟨e1, hb⟩ := half_down h1 h2 h3 ha
    obtain ⟨e2, -⟩ := half_up k1 k2 k3 hb
    rw [e1, e2]
    rfl
  · obtain ⟨e1, hb⟩ := half_flat h1 h2 h3 ha
    obtain ⟨e2, -⟩ := half_flat k1 k2 k3 hb
    have i1 : r.x * orient c a q = -((a.x - q.x) * leftOf q r c) := by
      have : r.x * orient c a q = (c.x - q.x) * leftOf q r a - (a.x - q.x) * leftOf q r c := by unfold orient leftOf; ring
      rw [this, ha]
      ring
    have i2 : r.y * orient c a q = -((a.y - q.y) * leftOf q r c) := by
      have : r.y * orient c a q = (c.y - q.y) * leftOf q r a - (a.y - q.y) * leftOf q r c := by unfold orient leftOf; ring
      rw [this, ha]
      ring
    have j1 : r.x * orient a d q = (a.x - q.x) * leftOf q r d := by
      have : r.x * orient a d q = (a.x - q.x) * leftOf q r d - (d.x - q.x) * leftOf q r a := by unfold orient leftOf; ring
      rw [this, ha]
      ring
    have j2 : r.y * orient a d q = (a.y - q.y) * leftOf q r d := by
      have : r.y * orient a d q = (a.y - q.y) * leftOf q r d - (d.y - q.y) * leftOf q r a := by unfold orient leftOf; ring
      rw [this, ha]
      ring
    have key : orient a d q * leftOf q r c + orient c a q * leftOf q r d = 0 := by
      have x1 : r.x * (orient a d q * leftOf q r c + orient c a q * leftOf q r d) = 0 := by
        linear_combination leftOf q r c * j1 + leftOf q r d * i1
      have x2 : r.y * (orient a d q * leftOf q r c + orient c a q * leftOf q r d) = 0 := by
        linear_combination leftOf q r c * j2 + leftOf q r d * i2
      rcases hr with hr | hr
      · exact (mul_eq_zero.mp x1).resolve_left hr
      · exact (mul_eq_zero.mp x2).resolve_left hr
    have hc0 : leftOf q r c ≠ 0 := by
      intro hc
      rw [hc, mul_zero, neg_zero] at i1 i2
      rcases hr with hr | hr
      · exact h3.ne' ((mul_eq_zero.mp i1).resolve_left hr)
      · exact h3.ne' ((mul_eq_zero.mp i2).resolve_left hr)
    rw [e1, e2]
    rcases lt_or_gt_of_ne hc0 with hc | hc
    · have hd : 0 < leftOf q r d := by
        by_contra hn
        push Not at hn
        have := mul_neg_of_pos_of_neg k2 hc
        have := mul_nonpos_of_nonneg_of_nonpos h3.le hn
        linarith
      rw [if_neg (not_lt.mpr hc.le), if_pos hd]
      rfl
    · have hd : ¬ 0 < leftOf q r d := by
        intro hd
        have := mul_pos k2 hc
        have := mul_pos h3 hd
        linarith
      rw [if_pos hc, if_neg hd]
      rfl
  · obtain ⟨e1, hb⟩ := half_up h1 h2 h3 ha
    obtain ⟨e2, -⟩ := half_down k1 k2 k3 hb
    rw [e1, e2]
    rfl

/-- there is a direction in which a point in the closed triangle counts -/
theorem turn3_dir {q a b c : Pt K} (h : 0 < orient a b c) (h1 : 0 ≤ orient a b q) (h2 : 0 ≤ orient b c q) (h3 : 0 ≤ orient c a q)
    (na : q ≠ a) (nb : q ≠ b) (nc : q ≠ c) : ∃ r : Pt K, (r.x ≠ 0 ∨ r.y ≠ 0) ∧ turn3 q r a b c = 1 := by
  have edge : ∀ a b c : Pt K, 0 < orient a b c → orient a b q = 0 → 0 ≤ orient b c q → 0 ≤ orient c a q → q ≠ a → q ≠ b →
      ∃ r : Pt K, (r.x ≠ 0 ∨ r.y ≠ 0) ∧ turn3 q r a b c = 1 := by
    intro a b c h h1 h2 h3 na nb
    obtain ⟨h2', h3', -⟩ := closed_edge h h1 h2 h3 na nb
    refine ⟨⟨c.x - q.x, c.y - q.y⟩, ?_, (half_up h1 h2' h3' ?_).1⟩
    · by_contra hn
      push Not at hn
      obtain ⟨hx, hy⟩ := hn
      have : q = c := pt_ext (sub_eq_zero.mp hx).symm (sub_eq_zero.mp hy).symm
      rw [this] at h1
      exact h.ne' h1
    · have : leftOf q ⟨c.x - q.x, c.y - q.y⟩ a = orient c a q := by unfold leftOf orient; ring
      rw [this]
      exact h3'
  have hb : 0 < orient b c a := by rw [orient_cyc]; exact h
  have hc : 0 < orient c a b := by rw [orient_cyc]; exact hb
  rcases h1.lt_or_eq with h1' | h1'
  · rcases h2.lt_or_eq with h2' | h2'
    · rcases h3.lt_or_eq with h3' | h3'
      · exact ⟨⟨1, 0⟩, Or.inl one_ne_zero, (turns h.le q _).inside h1' h2' h3' (Or.inl one_ne_zero)⟩
      · obtain ⟨r, hr, e⟩ := edge c a b hc h3'.symm h1 h2 nc na
        exact ⟨r, hr, (turn3_cyc q r c a b).trans e⟩
    · obtain ⟨r, hr, e⟩ := edge b c a hb h2'.symm h3 h1 nb nc
      exact ⟨r, hr, (turn3_cyc q r a b c).symm.trans e⟩
  · exact edge a b c h h1'.symm h2 h3 na nb

/-- an edge seen from the point, in the direction of its middle -/
theorem turn_mid {q a b : Pt K} (h : 0 < orient a b q) : 0 < turn q ⟨a.x + b.x - 2 * q.x, a.y + b.y - 2 * q.y⟩ a b := by
  refine turn_pos ?_ ?_ h
  · have : leftOf q ⟨a.x + b.x - 2 * q.x, a.y + b.y - 2 * q.y⟩ a = -orient a b q := by unfold leftOf orient; ring
    rw [this]
    linarith
  · have : leftOf q ⟨a.x + b.x - 2 * q.x, a.y + b.y - 2 * q.y⟩ b = orient a b q := by unfold leftOf orient; ring
    rw [this]
    exact h

end Verif.Delaunay
