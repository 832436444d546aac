import Verif.Plane.Model
import Verif.Polygon.PropsScan

/-!
# C110: the compiled tests for a point in a polygon or triangle
-/

namespace Verif.Plane
open Verif.Py Verif.Polygon

variable {K : Type} [Field K] [LinearOrder K] [IsStrictOrderedRing K]

/-- a point turned by half a turn about the origin -/
def neg (p : Pt K) : Pt K := ⟨-p.x, -p.y⟩

/-- the edge turns `inside` over -/
def Tog (p : Pt K) (e : Pt K × Pt K) : Prop :=
  Straddles (-p.y) (neg e.1, neg e.2) ∧ ¬ (neg p).x < xAt (neg p).y (neg e.1) (neg e.2)

theorem straddles_neg (p u v : Pt K) : Straddles (-p.y) (neg u, neg v) ↔ min u.y v.y < p.y ∧ p.y ≤ max u.y v.y := by
  unfold Straddles neg
  dsimp only
  rw [neg_lt_neg_iff, neg_lt_neg_iff]
  rcases le_or_gt u.y v.y with h | h
  · rw [min_eq_left h, max_eq_right h]
    constructor
    · intro hn
      by_contra hc
      apply hn
      constructor
      · intro h1; by_contra h2; exact hc ⟨h1, not_lt.1 h2⟩
      · intro h1; exact lt_of_le_of_lt h h1
    · rintro ⟨h1, h2⟩ hc
      exact absurd (hc.1 h1) (not_lt.2 h2)
  · rw [min_eq_right h.le, max_eq_left h.le]
    constructor
    · intro hn
      by_contra hc
      apply hn
      constructor
      · intro h1; exact lt_trans h h1
      · intro h1; by_contra h2; exact hc ⟨h1, not_lt.1 h2⟩
    · rintro ⟨h1, h2⟩ hc
      exact absurd (hc.2 h1) (not_lt.2 h2)

theorem xAt_neg (y : K) (u v : Pt K) : xAt (-y) (neg u) (neg v) = - xAt y u v := by
  unfold xAt neg
  dsimp only
  have : (-v.x - -u.x) * (-y - -u.y) / (-v.y - -u.y) = -((v.x - u.x) * (y - u.y) / (v.y - u.y)) := by
    rw [show (-v.y - -u.y) = -(v.y - u.y) by ring, div_neg]
    congr 2
    ring
  rw [this]; ring

theorem xAt_le_max (p u v : Pt K) (h1 : min u.y v.y < p.y) (h2 : p.y ≤ max u.y v.y) : xAt p.y u v ≤ max u.x v.x := by
  have hne : v.y - u.y ≠ 0 := by
    intro h
    have : u.y = v.y := by linarith
    rw [this, min_self] at h1; rw [this, max_self] at h2
    exact absurd h1 (not_lt.2 h2)
  unfold xAt
  have ht : ∃ t, t = (p.y - u.y) / (v.y - u.y) ∧ 0 ≤ t ∧ t ≤ 1 := by
    refine ⟨_, rfl, ?_, ?_⟩
    · rcases le_or_gt u.y v.y with h | h
      · rw [min_eq_left h] at h1
        exact div_nonneg (by linarith) (by linarith)
      · rw [max_eq_left h.le] at h2
        exact div_nonneg_of_nonpos (by linarith) (by linarith)
    · rcases le_or_gt u.y v.y with h | h
      · rw [max_eq_right h] at h2
        rw [div_le_one (lt_of_le_of_ne (by linarith) hne.symm)]; linarith
      · rw [min_eq_right h.le] at h1
        rw [div_le_one_of_neg (by linarith)]; linarith
  obtain ⟨t, ht, h0, h1'⟩ := ht
  rw [mul_div_assoc, ← ht]
  have e : u.x + (v.x - u.x) * t = (1 - t) * u.x + t * v.x := by ring
  rw [e]
  have a1 := mul_le_mul_of_nonneg_left (le_max_left u.x v.x) (by linarith : 0 ≤ 1 - t)
  have a2 := mul_le_mul_of_nonneg_left (le_max_right u.x v.x) h0
  linarith

/-- the conditions in the code on one edge -/
theorem tog_iff (p u v : Pt K) : Tog p (u, v) ↔ min u.y v.y < p.y ∧ p.y ≤ max u.y v.y ∧ p.x ≤ max u.x v.x ∧
    (u.x = v.x ∨ p.x ≤ (p.y - u.y) * (v.x - u.x) / (v.y - u.y) + u.x) := by
  have hx : (p.y - u.y) * (v.x - u.x) / (v.y - u.y) + u.x = xAt p.y u v := by
    unfold xAt; rw [mul_comm (p.y - u.y)]; ring
  unfold Tog
  dsimp only
  rw [straddles_neg, show (neg p).y = -p.y from rfl, xAt_neg, show (neg p).x = -p.x from rfl, neg_lt_neg_iff, not_lt, hx]
  constructor
  · rintro ⟨⟨h1, h2⟩, h3⟩
    exact ⟨h1, h2, le_trans h3 (xAt_le_max p u v h1 h2), Or.inr h3⟩
  · rintro ⟨h1, h2, h3, h4⟩
    refine ⟨⟨h1, h2⟩, ?_⟩
    rcases h4 with h4 | h4
    · unfold xAt; rw [← h4]; rw [← h4, max_self] at h3; simpa using h3
    · exact h4

open Classical in
theorem pipStep_eq (p : Pt K) (s : Bool × K × Pt K) (v : Pt K) :
    (pipStep p s v).1 = (s.1 ^^ decide (Tog p (s.2.2, v))) ∧ (pipStep p s v).2.2 = v := by
  obtain ⟨b, x, u⟩ := s
  have ht := tog_iff p u v
  unfold pipStep
  dsimp only
  by_cases h1 : min u.y v.y < p.y
  · rw [if_pos h1]
    by_cases h2 : p.y ≤ max u.y v.y
    · rw [if_pos h2]
      have hne : u.y ≠ v.y := by
        intro h
        rw [h, min_self] at h1; rw [h, max_self] at h2
        exact absurd h1 (not_lt.2 h2)
      by_cases h3 : p.x ≤ max u.x v.x
      · rw [if_pos h3]
        refine ⟨?_, rfl⟩
        dsimp only
        rw [if_pos hne]
        by_cases h4 : u.x = v.x ∨ p.x ≤ (p.y - u.y) * (v.x - u.x) / (v.y - u.y) + u.x
        · rw [if_pos h4, decide_eq_true (ht.2 ⟨h1, h2, h3, h4⟩), Bool.xor_true]
        · rw [if_neg h4, decide_eq_false (fun h => h4 (ht.1 h).2.2.2), Bool.xor_false]
      · rw [if_neg h3, decide_eq_false (fun h => h3 (ht.1 h).2.2.1), Bool.xor_false]
        exact ⟨rfl, rfl⟩
    · rw [if_neg h2, decide_eq_false (fun h => h2 (ht.1 h).2.1), Bool.xor_false]
      exact ⟨rfl, rfl⟩
  · rw [if_neg h1, decide_eq_false (fun h => h1 (ht.1 h).1), Bool.xor_false]
    exact ⟨rfl, rfl⟩

open Classical in
theorem foldl_pip (p : Pt K) (l : List (Pt K)) (s : Bool × K × Pt K) :
    (l.foldl (pipStep p) s).1 = (s.1 ^^ ((edgesFrom s.2.2 l).countP (fun e => decide (Tog p e)) % 2 == 1)) := by
  induction l generalizing s with
  | nil => simp [edgesFrom]
  | cons v l ih =>
    rw [List.foldl_cons, ih, (pipStep_eq p s v).1, (pipStep_eq p s v).2, edgesFrom, List.countP_cons, Bool.xor_assoc]
    congr 1
    by_cases h : Tog p (s.2.2, v)
    · simp only [h, decide_true, if_true, Bool.true_xor]
      rw [Bool.eq_iff_iff]; simp; omega
    · simp [h]

open Classical in
theorem tog_self (p v : Pt K) : ¬ Tog p (v, v) := by
  rw [tog_iff]; rintro ⟨h1, h2, -⟩
  rw [min_self] at h1; rw [max_self] at h2
  exact absurd h1 (not_lt.2 h2)

open Classical in
theorem pointInPolygon_count (p : Pt K) (poly : List (Pt K)) :
    pointInPolygon p poly = ((edges poly).countP (fun e => decide (Tog p e)) % 2 == 1) := by
  cases poly with
  | nil => rfl
  | cons v l =>
    unfold pointInPolygon
    dsimp only
    rw [foldl_pip, Bool.false_xor, List.cons_append, edgesFrom, List.countP_cons, if_neg (by simpa using tog_self p v),
      (edges_cons v l).countP_eq]
    rfl

theorem pointInPolygon_eq (p : Pt K) (poly : List (Pt K)) : pointInPolygon p poly = pipCn (neg p) (poly.map neg) := by
  classical
  rw [pointInPolygon_count, pipCn_eq, edges_map, cnSum_filter]
  have he := even_straddles (neg p).y (poly.map neg)
  rw [edges_map, List.countP_eq_length_filter] at he
  have hs : (edges poly).countP (fun e => decide (Tog p e)) =
      (((edges poly).map (Prod.map neg neg)).filter (fun e => decide (Straddles (neg p).y e))).countP
        (fun e => !decide ((neg p).x < xAt (neg p).y e.1 e.2)) := by
    rw [List.countP_filter, List.countP_map]
    congr 1
    funext e
    rw [Bool.eq_iff_iff]
    simp only [Tog, Function.comp, Bool.and_eq_true, Bool.not_eq_true', decide_eq_true_eq, decide_eq_false_iff_not, Prod.map,
      show (neg p).y = -p.y from rfl]
    exact ⟨fun h => ⟨h.2, h.1⟩, fun h => ⟨h.2, h.1⟩⟩
  rw [hs]
  have hl := List.length_eq_countP_add_countP (fun e : Pt K × Pt K => decide ((neg p).x < xAt (neg p).y e.1 e.2))
    (l := ((edges poly).map (Prod.map neg neg)).filter (fun e => decide (Straddles (neg p).y e)))
  have hc : ∀ l : List (Pt K × Pt K), l.countP (fun a => !decide ((neg p).x < xAt (neg p).y a.1 a.2)) =
      l.countP (fun a => decide ¬ decide ((neg p).x < xAt (neg p).y a.1 a.2) = true) := by
    intro l; congr 1; funext a; rw [Bool.eq_iff_iff]; simp
  rw [hc]
  rw [Bool.eq_iff_iff, beq_iff_eq, beq_iff_eq]
  omega

/-! ## Statements -/

/-- the edge meets the horizontal ray going from `p` in the direction of increasing x, `p` itself being part of the ray;
an end of the edge at the level of the point counts as above it -/
def MeetsRayUp (p : Pt K) (e : Pt K × Pt K) : Prop :=
  ¬ (e.1.y < p.y ↔ e.2.y < p.y) ∧
    ∃ t : K, 0 ≤ t ∧ t ≤ 1 ∧ e.1.y + t * (e.2.y - e.1.y) = p.y ∧ p.x ≤ e.1.x + t * (e.2.x - e.1.x)

/-- the point is on the edge -/
def OnEdge (p : Pt K) (e : Pt K × Pt K) : Prop :=
  ∃ t : K, 0 ≤ t ∧ t ≤ 1 ∧ e.1.x + t * (e.2.x - e.1.x) = p.x ∧ e.1.y + t * (e.2.y - e.1.y) = p.y

theorem xAt_param {p u v : Pt K} (hne : u.y ≠ v.y) {t : K} (ht : u.y + t * (v.y - u.y) = p.y) :
    xAt p.y u v = u.x + t * (v.x - u.x) := by
  have hd : v.y - u.y ≠ 0 := sub_ne_zero.2 hne.symm
  unfold xAt
  rw [← ht]
  field_simp
  ring

theorem param_exists {p u v : Pt K} (hne : u.y ≠ v.y) (h1 : min u.y v.y ≤ p.y) (h2 : p.y ≤ max u.y v.y) :
    ∃ t : K, 0 ≤ t ∧ t ≤ 1 ∧ u.y + t * (v.y - u.y) = p.y := by
  have hd : v.y - u.y ≠ 0 := sub_ne_zero.2 hne.symm
  refine ⟨(p.y - u.y) / (v.y - u.y), ?_, ?_, by field_simp; ring⟩
  · rcases le_or_gt u.y v.y with h | h
    · rw [min_eq_left h] at h1
      exact div_nonneg (by linarith) (by linarith)
    · rw [max_eq_left h.le] at h2
      exact div_nonneg_of_nonpos (by linarith) (by linarith)
  · rcases le_or_gt u.y v.y with h | h
    · rw [max_eq_right h] at h2
      rw [div_le_one (lt_of_le_of_ne (by linarith) hd.symm)]; linarith
    · rw [min_eq_right h.le] at h1
      rw [div_le_one_of_neg (by linarith)]; linarith

theorem tog_ray (p : Pt K) (e : Pt K × Pt K) : Tog p e ↔ MeetsRayUp p e := by
  obtain ⟨u, v⟩ := e
  have h0 : ¬ (u.y < p.y ↔ v.y < p.y) ↔ min u.y v.y < p.y ∧ p.y ≤ max u.y v.y := by
    rw [← straddles_neg]; unfold Straddles neg; dsimp only; rw [neg_lt_neg_iff, neg_lt_neg_iff]
  unfold Tog MeetsRayUp
  dsimp only
  rw [straddles_neg, show (neg p).y = -p.y from rfl, xAt_neg, show (neg p).x = -p.x from rfl, neg_lt_neg_iff, not_lt, h0]
  refine and_congr_right fun h => ?_
  have hne : u.y ≠ v.y := by
    intro hh
    have h1 := h.1; have h2 := h.2
    rw [hh, min_self] at h1; rw [hh, max_self] at h2
    exact absurd h1 (not_lt.2 h2)
  obtain ⟨t, t0, t1, ht⟩ := param_exists hne h.1.le h.2
  constructor
  · intro hx; exact ⟨t, t0, t1, ht, by rw [← xAt_param hne ht]; exact hx⟩
  · rintro ⟨t', -, -, ht', hx⟩; rw [xAt_param hne ht']; exact hx

open Classical in
/-- The test for a point in a polygon is true exactly when an odd number of edges meet the ray going from the point in
the direction of increasing x. -/
theorem C110_crossings (p : Pt K) (poly : List (Pt K)) :
    pointInPolygon p poly = true ↔ (edges poly).countP (fun e => decide (MeetsRayUp p e)) % 2 = 1 := by
  rw [pointInPolygon_count, beq_iff_eq]
  simp only [tog_ray]

theorem map_rotate (poly : List (Pt K)) (n : Nat) : (poly.rotate n).map neg = (poly.map neg).rotate n := List.map_rotate ..

/-- The test does not depend on which vertex the polygon starts with, nor on its direction, nor on whether its first
vertex is repeated at the end. -/
theorem C110_start_and_direction (p : Pt K) (poly : List (Pt K)) (n : Nat) :
    pointInPolygon p (poly.rotate n) = pointInPolygon p poly ∧ pointInPolygon p poly.reverse = pointInPolygon p poly ∧
      ∀ v l, poly = v :: l → pointInPolygon p (v :: l ++ [v]) = pointInPolygon p poly := by
  refine ⟨?_, ?_, ?_⟩
  · rw [pointInPolygon_eq, pointInPolygon_eq, map_rotate, (C36_any_start ..).1]
  · rw [pointInPolygon_eq, pointInPolygon_eq, List.map_reverse, (C36_either_direction ..).1]
  · rintro v l rfl
    rw [pointInPolygon_eq, pointInPolygon_eq]
    have := (C36_repeated_vertex (neg p) (neg v) (l.map neg) []).2.1
    simpa using this

/-- When a polygon is cut in two along a line between two of its vertices, a point inside it is inside exactly one of
the parts, and a point not inside it is in neither or in both. -/
theorem C110_cut (p a b : Pt K) (l m : List (Pt K)) :
    pointInPolygon p (a :: l ++ b :: m) = (pointInPolygon p (a :: l ++ [b]) ^^ pointInPolygon p (b :: m ++ [a])) := by
  rw [pointInPolygon_eq, pointInPolygon_eq, pointInPolygon_eq]
  have := (C36_cut (neg p) (neg a) (neg b) (l.map neg) (m.map neg)).1
  simpa using this

theorem straddle_ray {p : Pt K} {e : Pt K × Pt K} (h : Straddles p.y e) : MeetsRay p e ↔ p.x < xAt p.y e.1 e.2 := by
  rw [meetsRay_iff]
  rcases (straddles_iff p.y e).1 h with ⟨h1, h2⟩ | ⟨h1, h2⟩
  · rw [lt_xAt_up p e.1 e.2 h1 h2]
    constructor
    · rintro (h3 | h3)
      · exact h3.2.2
      · exact absurd h3.1 (not_lt.2 h1)
    · intro h3; exact Or.inl ⟨h1, h2, h3⟩
  · rw [lt_xAt_dn p e.1 e.2 h1 h2]
    constructor
    · rintro (h3 | h3)
      · exact absurd h3.2.1 (not_lt.2 h2)
      · exact h3.2.2
    · intro h3; exact Or.inr ⟨h1, h2, h3⟩

open Classical in
/-- 1 for a vertex on the ray -/
noncomputable def onRay (p v : Pt K) : Nat := if v.y = p.y ∧ p.x < v.x then 1 else 0

open Classical in
/-- what one edge adds to the two counts -/
theorem edge_parity (p : Pt K) (e : Pt K × Pt K) (hoff : ¬ OnEdge p e) :
    ((if MeetsRayUp p e then 1 else 0) + (if MeetsRay p e then 1 else 0)) % 2 = (onRay p e.1 + onRay p e.2) % 2 := by
  obtain ⟨u, v⟩ := e
  have hu : ¬ (u.x = p.x ∧ u.y = p.y) := fun h => hoff ⟨0, le_refl _, zero_le_one, by simp [h.1], by simp [h.2]⟩
  have hv : ¬ (v.x = p.x ∧ v.y = p.y) := fun h => hoff ⟨1, zero_le_one, le_refl _, by simp [h.1], by simp [h.2]⟩
  have hup : MeetsRayUp p (u, v) ↔ (min u.y v.y < p.y ∧ p.y ≤ max u.y v.y) ∧ p.x ≤ xAt p.y u v := by
    rw [← tog_ray]; unfold Tog; dsimp only
    rw [straddles_neg, show (neg p).y = -p.y from rfl, xAt_neg, show (neg p).x = -p.x from rfl, neg_lt_neg_iff, not_lt]
  have hdn : MeetsRay p (u, v) ↔ Straddles p.y (u, v) ∧ p.x < xAt p.y u v :=
    ⟨fun h => ⟨h.1, (straddle_ray h.1).1 h⟩, fun h => (straddle_ray h.1).2 h.2⟩
  rw [if_congr hup rfl rfl, if_congr hdn rfl rfl]
  unfold Straddles onRay
  dsimp only
  have hxu : u.y = p.y → u.y ≠ v.y → xAt p.y u v = u.x := by
    intro h _; unfold xAt; rw [h]; simp
  have hxv : v.y = p.y → u.y ≠ v.y → xAt p.y u v = v.x := by
    intro h hne
    have hd : v.y - u.y ≠ 0 := sub_ne_zero.2 hne.symm
    unfold xAt; rw [← h]; field_simp; ring
  have hle : ∀ w : Pt K, ¬ (w.x = p.x ∧ w.y = p.y) → w.y = p.y → (p.x ≤ w.x ↔ p.x < w.x) := by
    intro w hw hy
    exact ⟨fun h => lt_of_le_of_ne h fun hh => hw ⟨hh.symm, hy⟩, le_of_lt⟩
  rcases lt_trichotomy u.y p.y with h1 | h1 | h1 <;> rcases lt_trichotomy v.y p.y with h2 | h2 | h2
  · simp [not_lt.2 h1.le, not_lt.2 h2.le, not_le.2 h1, not_le.2 h2, h1.ne, h2.ne, h1, h2]
  · have hne : u.y ≠ v.y := by rw [h2]; exact h1.ne
    rw [hxv h2 hne]
    have := hle v hv h2
    simp [h1, h2, this, h1.ne, not_lt.2 h1.le]
  · have hne : u.y ≠ v.y := (h1.trans h2).ne
    have hx : p.x ≤ xAt p.y u v ↔ p.x < xAt p.y u v := by
      refine ⟨fun h => lt_of_le_of_ne h fun hh => ?_, le_of_lt⟩
      obtain ⟨t, t0, t1, ht⟩ := param_exists hne (min_le_of_left_le h1.le) (le_max_of_le_right h2.le)
      exact hoff ⟨t, t0, t1, by dsimp only; rw [← xAt_param hne ht, ← hh], ht⟩
    by_cases hb : p.x < xAt p.y u v <;> simp [h1, h2, hx, hb, h1.ne, h2.ne', not_lt.2 h1.le, h2.le]
  · have hne : u.y ≠ v.y := by rw [h1]; exact h2.ne'
    rw [hxu h1 hne]
    have := hle u hu h1
    simp [h1, h2, this, h2.ne, not_lt.2 h2.le]
  · have hs : p.x < u.x ↔ p.x < v.x := by
      constructor
      · intro h
        by_contra hc
        rw [not_lt] at hc
        have hd : 0 < u.x - v.x := by linarith
        refine hoff ⟨(u.x - p.x) / (u.x - v.x), div_nonneg (by linarith) hd.le, ?_, ?_, by simp [h1, h2]⟩
        · rw [div_le_one hd]; linarith
        · dsimp only
          have : v.x - u.x = -(u.x - v.x) := by ring
          rw [this, mul_neg, div_mul_cancel₀ _ hd.ne']; ring
      · intro h
        by_contra hc
        rw [not_lt] at hc
        have hd : 0 < v.x - u.x := by linarith
        refine hoff ⟨(p.x - u.x) / (v.x - u.x), div_nonneg (by linarith) hd.le, ?_, ?_, by simp [h1, h2]⟩
        · rw [div_le_one hd]; linarith
        · dsimp only
          rw [div_mul_cancel₀ _ hd.ne']; ring
    by_cases hb : p.x < v.x <;> simp [h1, h2, hs, hb]
  · have hne : u.y ≠ v.y := by rw [h1]; exact h2.ne
    rw [hxu h1 hne]
    simp [h1, h2, h2.ne', not_lt.2 h2.le]
  · have hne : u.y ≠ v.y := (h2.trans h1).ne'
    have hx : p.x ≤ xAt p.y u v ↔ p.x < xAt p.y u v := by
      refine ⟨fun h => lt_of_le_of_ne h fun hh => ?_, le_of_lt⟩
      obtain ⟨t, t0, t1, ht⟩ := param_exists hne (min_le_of_right_le h2.le) (le_max_of_le_left h1.le)
      exact hoff ⟨t, t0, t1, by dsimp only; rw [← xAt_param hne ht, ← hh], ht⟩
    by_cases hb : p.x < xAt p.y u v <;> simp [h1, h2, hx, hb, h1.ne', h2.ne, not_lt.2 h2.le, h1.le]
  · have hne : u.y ≠ v.y := by rw [h2]; exact h1.ne'
    rw [hxv h2 hne]
    simp [h1, h2, h1.ne', not_lt.2 h1.le]
  · simp [not_lt.2 h1.le, not_lt.2 h2.le, h1.ne', h2.ne', h1, h2]

theorem sum_ends (f : Pt K → Nat) (u w : Pt K) (l : List (Pt K)) :
    ((edgesFrom u (l ++ [w])).map fun e => f e.1 + f e.2).sum = f u + f w + 2 * (l.map f).sum := by
  induction l generalizing u with
  | nil => simp [edgesFrom]
  | cons a l ih =>
    simp only [List.cons_append, edgesFrom, List.map_cons, List.sum_cons, ih]
    omega

theorem even_ends (f : Pt K → Nat) (poly : List (Pt K)) : ((edges poly).map fun e => f e.1 + f e.2).sum % 2 = 0 := by
  cases poly with
  | nil => rfl
  | cons v l => rw [((edges_cons v l).map _).sum_eq, sum_ends]; omega

/-- For a point on none of the edges, this test and the crossing number test of `pip_cn` agree. -/
theorem C110_same_as_crossing_number (p : Pt K) (poly : List (Pt K)) (hoff : ∀ e ∈ edges poly, ¬ OnEdge p e) :
    pointInPolygon p poly = pipCn p poly := by
  classical
  rw [Bool.eq_iff_iff, C110_crossings, C36_crossing_number]
  have hsum : ∀ l : List (Pt K × Pt K), (∀ e ∈ l, ¬ OnEdge p e) →
      (l.countP (fun e => decide (MeetsRayUp p e)) + l.countP (fun e => decide (MeetsRay p e))) % 2 =
        (l.map fun e => onRay p e.1 + onRay p e.2).sum % 2 := by
    intro l hl
    induction l with
    | nil => rfl
    | cons e l ih =>
      have h1 := edge_parity p e (hl e (List.mem_cons_self ..))
      have h2 := ih fun e' he' => hl e' (List.mem_cons_of_mem _ he')
      rw [List.countP_cons, List.countP_cons, List.map_cons, List.sum_cons]
      simp only [decide_eq_true_eq]
      omega
  have h1 := hsum _ hoff
  rw [even_ends] at h1
  omega

theorem orient_neg (a b c : Pt K) : orient (neg a) (neg b) (neg c) = orient a b c := by
  simp only [orient, neg]; ring

/-- For a triangle, a point strictly within it is inside; a point found to be inside is within it or on its boundary; a
triangle without area contains no point. -/
theorem C110_triangle (p a b c : Pt K) :
    (StrictlyInside a b c p → pointInPolygon p [a, b, c] = true) ∧
      (pointInPolygon p [a, b, c] = true → WithinClosed a b c p) ∧
      (orient a b c = 0 → pointInPolygon p [a, b, c] = false) := by
  have h := C36_triangle (neg p) (neg a) (neg b) (neg c)
  rw [pointInPolygon_eq]
  refine ⟨fun hs => (h.1 ?_).1, fun hs => ?_, fun h0 => h.2.2 (by rw [orient_neg]; exact h0)⟩
  · unfold StrictlyInside at hs ⊢
    simpa only [orient_neg] using hs
  · obtain ⟨x, y, z, h1, h2, h3, h4, h5, h6⟩ := h.2.1 hs
    simp only [neg] at h5 h6
    exact ⟨x, y, z, h1, h2, h3, h4, by linarith, by linarith⟩

theorem pitSide_eq (p u v : Pt K) (b : Bool) (x : K) : pitSide p b u v = (pipStep p (b, x, u) v).1 := by
  unfold pitSide pipStep
  dsimp only
  by_cases h1 : p.y > min u.y v.y
  · rw [if_pos h1, if_pos h1]
    by_cases h2 : p.y ≤ max u.y v.y
    · rw [if_pos h2, if_pos h2]
      have hne : u.y ≠ v.y := by
        intro h
        rw [h, min_self] at h1; rw [h, max_self] at h2
        exact absurd h1 (not_lt.2 h2)
      by_cases h3 : p.x ≤ max u.x v.x
      · rw [if_pos h3, if_pos h3, if_pos hne, if_neg hne]
        by_cases h4 : u.x = v.x
        · simp [h4]
        · simp only [h4, if_false, false_or]
      · rw [if_neg h3, if_neg h3]
    · rw [if_neg h2, if_neg h2]
  · rw [if_neg h1, if_neg h1]

/-- The version for triangles and the version for polygons agree for every triangle and every point. -/
theorem C110_versions_agree (p a b c : Pt K) : pointInTriangle p a b c = pointInPolygon p [a, b, c] := by
  have hr : pitSide p (pitSide p (pitSide p false a b) b c) c a = pointInPolygon p [a, b, c] := by
    have h0 : (pipStep p (false, (0 : K), a) a).1 = false := by
      classical
      rw [(pipStep_eq p (false, 0, a) a).1, decide_eq_false (tog_self p a)]; rfl
    unfold pointInPolygon
    simp only [List.cons_append, List.nil_append, List.foldl_cons, List.foldl_nil]
    have e : ∀ (s : Bool × K × Pt K) (w : Pt K), (pipStep p s w).1 = pitSide p s.1 s.2.2 w := by
      intro s w; rw [pitSide_eq p s.2.2 w s.1 s.2.1]
    have e2 : ∀ (s : Bool × K × Pt K) (w : Pt K), (pipStep p s w).2.2 = w := by
      classical
      intro s w; exact (pipStep_eq p s w).2
    rw [e, e2, e, e2, e, e2, h0]
  have hw := (C110_triangle p a b c).2.1
  have hout : ∀ h : ¬ WithinClosed a b c p, pointInPolygon p [a, b, c] = false := by
    intro h
    by_contra hc
    rw [Bool.not_eq_false] at hc
    exact h (hw hc)
  have bound : ∀ f : Pt K → K, ∀ u v w : K, 0 ≤ u → 0 ≤ v → 0 ≤ w → u + v + w = 1 →
      min (min (f a) (f b)) (f c) ≤ u * f a + v * f b + w * f c ∧ u * f a + v * f b + w * f c ≤ max (max (f a) (f b)) (f c) := by
    intro f u v w hu hv hw hs
    have a1 : min (min (f a) (f b)) (f c) ≤ f a := le_trans (min_le_left _ _) (min_le_left _ _)
    have a2 : min (min (f a) (f b)) (f c) ≤ f b := le_trans (min_le_left _ _) (min_le_right _ _)
    have a3 : min (min (f a) (f b)) (f c) ≤ f c := min_le_right _ _
    have b1 : f a ≤ max (max (f a) (f b)) (f c) := le_trans (le_max_left _ _) (le_max_left _ _)
    have b2 : f b ≤ max (max (f a) (f b)) (f c) := le_trans (le_max_right _ _) (le_max_left _ _)
    have b3 : f c ≤ max (max (f a) (f b)) (f c) := le_max_right _ _
    generalize min (min (f a) (f b)) (f c) = lo at *
    generalize max (max (f a) (f b)) (f c) = hi at *
    have e : ∀ m : K, m = u * m + v * m + w * m := by intro m; rw [← add_mul, ← add_mul, hs, one_mul]
    rw [e lo, e hi]
    exact ⟨add_le_add (add_le_add (mul_le_mul_of_nonneg_left a1 hu) (mul_le_mul_of_nonneg_left a2 hv))
      (mul_le_mul_of_nonneg_left a3 hw), add_le_add (add_le_add (mul_le_mul_of_nonneg_left b1 hu)
      (mul_le_mul_of_nonneg_left b2 hv)) (mul_le_mul_of_nonneg_left b3 hw)⟩
  unfold pointInTriangle
  split
  · rename_i h
    exact (hout fun ⟨u, v, w, h1, h2, h3, h4, h5, _⟩ => absurd h (not_lt.2 (h5 ▸ (bound (·.x) u v w h1 h2 h3 h4).1))).symm
  split
  · rename_i h
    exact (hout fun ⟨u, v, w, h1, h2, h3, h4, h5, _⟩ => absurd h (not_lt.2 (h5 ▸ (bound (·.x) u v w h1 h2 h3 h4).2))).symm
  split
  · rename_i h
    exact (hout fun ⟨u, v, w, h1, h2, h3, h4, _, h6⟩ => absurd h (not_lt.2 (h6 ▸ (bound (·.y) u v w h1 h2 h3 h4).1))).symm
  split
  · rename_i h
    exact (hout fun ⟨u, v, w, h1, h2, h3, h4, _, h6⟩ => absurd h (not_lt.2 (h6 ▸ (bound (·.y) u v w h1 h2 h3 h4).2))).symm
  exact hr

/-- A point in two triangles which share a side and together make a polygon with four corners is in that polygon
exactly when it is in one of them only: no point of the common side is counted twice or missed. -/
theorem C110_shared_side (p a b c d : Pt K) :
    pointInPolygon p [a, b, c, d] = (pointInTriangle p a b c ^^ pointInTriangle p c d a) := by
  rw [C110_versions_agree, C110_versions_agree]
  exact C110_cut p a c [b] [d]

/-! ## Lists of points -/

theorem rows_eq (inside : Pt K → Bool) (points : List (Pt K)) (xlen : Nat) (num : Int) (h : num ≠ -1) :
    rowsFor inside points xlen num = (points.zipIdx.filter fun e => inside e.1).map fun e =>
      (num, ((e.2 / xlen : Nat) : Int), ((e.2 % xlen : Nat) : Int)) := by
  unfold rowsFor
  induction points.zipIdx with
  | nil => rfl
  | cons e l ih =>
    rw [List.map_cons]
    by_cases hi : inside e.1 = true
    · rw [if_pos hi, List.filter_cons_of_pos (by simpa using h), ih, List.filter_cons_of_pos (by simpa using hi),
        List.map_cons]
    · rw [if_neg hi, List.filter_cons_of_neg (by simp), ih, List.filter_cons_of_neg (by simpa using hi)]

/-- The rows of `points_in_polygon` are, in order, the number of the polygon with the J and I index of each point inside
it, the points being those of a mesh with `xlen` in a row. -/
theorem C110_listed (points polygon : List (Pt K)) (xlen : Nat) (hx : 0 < xlen) (num : Int) (h : num ≠ -1) (j i : Nat)
    (hi : i < xlen) :
    (num, (j : Int), (i : Int)) ∈ pointsInPolygon points polygon xlen num ↔
      ∃ p, points[j * xlen + i]? = some p ∧ pointInPolygon p polygon = true := by
  unfold pointsInPolygon
  rw [rows_eq _ _ _ _ h]
  simp only [List.mem_map, List.mem_filter, Prod.exists, Prod.mk.injEq, true_and]
  constructor
  · rintro ⟨p, n, ⟨hm, hin⟩, h1, h2⟩
    have h1' : n / xlen = j := by exact_mod_cast h1
    have h2' : n % xlen = i := by exact_mod_cast h2
    have hn : n = j * xlen + i := by rw [← h1', ← h2', Nat.mul_comm]; exact (Nat.div_add_mod n xlen).symm
    subst hn
    exact ⟨p, List.mem_zipIdx_iff_getElem?.1 hm, hin⟩
  · rintro ⟨p, hp, hin⟩
    refine ⟨p, j * xlen + i, ⟨List.mem_zipIdx_iff_getElem?.2 hp, hin⟩, ?_, ?_⟩
    · rw [Nat.mul_comm, Nat.mul_add_div hx, Nat.div_eq_of_lt hi, Nat.add_zero]
    · rw [Nat.mul_comm, Nat.mul_add_mod, Nat.mod_eq_of_lt hi]

/-- Every row of `points_in_polygons` and `points_in_triangles_njit` has the number of a polygon or triangle and the
indices of a point inside it, and all are there. -/
theorem C110_listed_many (points : List (Pt K)) (polygons : List (List (Pt K))) (tris : List (Pt K × Pt K × Pt K))
    (xlen : Nat) (hx : 0 < xlen) (num j i : Nat) (hi : i < xlen) :
    (((num : Int), (j : Int), (i : Int)) ∈ pointsInPolygons points polygons xlen ↔
      ∃ poly p, polygons[num]? = some poly ∧ points[j * xlen + i]? = some p ∧ pointInPolygon p poly = true) ∧
    (((num : Int), (j : Int), (i : Int)) ∈ pointsInTrianglesNjit points tris xlen ↔
      ∃ a b c p, tris[num]? = some (a, b, c) ∧ points[j * xlen + i]? = some p ∧ pointInPolygon p [a, b, c] = true) := by
  have hrow : ∀ (inside : Pt K → Bool) (n : Nat), ((num : Int), (j : Int), (i : Int)) ∈ rowsFor inside points xlen (n : Int) ↔
      num = n ∧ ∃ p, points[j * xlen + i]? = some p ∧ inside p = true := by
    intro inside n
    rw [rows_eq _ _ _ _ (by omega)]
    simp only [List.mem_map, List.mem_filter, Prod.exists, Prod.mk.injEq]
    constructor
    · rintro ⟨p, m, ⟨hm, hin⟩, h0, h1, h2⟩
      have h1' : m / xlen = j := by exact_mod_cast h1
      have h2' : m % xlen = i := by exact_mod_cast h2
      have hn : m = j * xlen + i := by rw [← h1', ← h2', Nat.mul_comm]; exact (Nat.div_add_mod m xlen).symm
      subst hn
      exact ⟨by omega, p, List.mem_zipIdx_iff_getElem?.1 hm, hin⟩
    · rintro ⟨h0, p, hp, hin⟩
      refine ⟨p, j * xlen + i, ⟨List.mem_zipIdx_iff_getElem?.2 hp, hin⟩, by omega, ?_, ?_⟩
      · rw [Nat.mul_comm, Nat.mul_add_div hx, Nat.div_eq_of_lt hi, Nat.add_zero]
      · rw [Nat.mul_comm, Nat.mul_add_mod, Nat.mod_eq_of_lt hi]
  constructor
  · unfold pointsInPolygons pointsInPolygon
    simp only [List.mem_flatMap, Prod.exists, hrow]
    constructor
    · rintro ⟨poly, n, hm, rfl, p, hp, hin⟩
      exact ⟨poly, p, List.mem_zipIdx_iff_getElem?.1 hm, hp, hin⟩
    · rintro ⟨poly, p, hn, hp, hin⟩
      exact ⟨poly, num, List.mem_zipIdx_iff_getElem?.2 hn, rfl, p, hp, hin⟩
  · unfold pointsInTrianglesNjit pointsInTriangle
    simp only [List.mem_flatMap, Prod.exists, hrow, C110_versions_agree]
    constructor
    · rintro ⟨a, b, c, n, hm, rfl, p, hp, hin⟩
      exact ⟨a, b, c, p, List.mem_zipIdx_iff_getElem?.1 hm, hp, hin⟩
    · rintro ⟨a, b, c, p, hn, hp, hin⟩
      exact ⟨a, b, c, num, List.mem_zipIdx_iff_getElem?.2 hn, rfl, p, hp, hin⟩

example : pointInPolygon (⟨1, 1⟩ : Pt ℚ) [⟨0, 0⟩, ⟨4, 0⟩, ⟨0, 4⟩] = true ∧
    pointInTriangle (⟨1, 1⟩ : Pt ℚ) ⟨0, 0⟩ ⟨4, 0⟩ ⟨0, 4⟩ = true ∧
    pointInTriangle (⟨3, 3⟩ : Pt ℚ) ⟨0, 0⟩ ⟨4, 0⟩ ⟨0, 4⟩ = false ∧
    pointInTriangle (⟨2, 2⟩ : Pt ℚ) ⟨0, 0⟩ ⟨4, 0⟩ ⟨0, 4⟩ = true ∧
    pointInTriangle (⟨2, 0⟩ : Pt ℚ) ⟨0, 0⟩ ⟨4, 0⟩ ⟨0, 4⟩ = false ∧
    pointsInPolygon [⟨5, 5⟩, ⟨1, 1⟩, ⟨1, 2⟩] [(⟨0, 0⟩ : Pt ℚ), ⟨4, 0⟩, ⟨0, 4⟩] 2 7 = [(7, 0, 1), (7, 1, 0)] := by
  decide +kernel

end Verif.Plane
