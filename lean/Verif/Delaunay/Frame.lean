import Verif.Delaunay.Insert
import Mathlib.Data.List.Nodup

/-! # The container encloses the points -/

namespace Verif.Delaunay
open Verif.Py
open Verif.Polygon (Pt orient)

variable {K : Type} [Field K] [LinearOrder K] [IsStrictOrderedRing K]

theorem foldl_min_le (c : Pt K → K) (l : List (Pt K)) : ∀ (m : K), l.foldl (fun m q => min m (c q)) m ≤ m ∧ ∀ q ∈ l, l.foldl (fun m q => min m (c q)) m ≤ c q := by
  induction l with
  | nil => intro m; simp
  | cons a l ih =>
    intro m
    obtain ⟨h1, h2⟩ := ih (min m (c a))
    rw [List.foldl_cons]
    refine ⟨h1.trans (min_le_left _ _), fun q hq => ?_⟩
    rcases List.mem_cons.mp hq with rfl | hq
    · exact h1.trans (min_le_right _ _)
    · exact h2 q hq

theorem le_foldl_max (c : Pt K → K) (l : List (Pt K)) : ∀ (m : K), m ≤ l.foldl (fun m q => max m (c q)) m ∧ ∀ q ∈ l, c q ≤ l.foldl (fun m q => max m (c q)) m := by
  induction l with
  | nil => intro m; simp
  | cons a l ih =>
    intro m
    obtain ⟨h1, h2⟩ := ih (max m (c a))
    rw [List.foldl_cons]
    refine ⟨(le_max_left _ _).trans h1, fun q hq => ?_⟩
    rcases List.mem_cons.mp hq with rfl | hq
    · exact (le_max_right _ _).trans h1
    · exact h2 q hq

theorem extreme_min_le (c : Pt K → K) {l : List (Pt K)} {q : Pt K} (hq : q ∈ l) : extreme min c l ≤ c q := by
  cases l with
  | nil => simp at hq
  | cons a l =>
    obtain ⟨h1, h2⟩ := foldl_min_le c l (c a)
    rcases List.mem_cons.mp hq with rfl | hq
    · exact h1
    · exact h2 q hq

theorem le_extreme_max (c : Pt K → K) {l : List (Pt K)} {q : Pt K} (hq : q ∈ l) : c q ≤ extreme max c l := by
  cases l with
  | nil => simp at hq
  | cons a l =>
    obtain ⟨h1, h2⟩ := le_foldl_max c l (c a)
    rcases List.mem_cons.mp hq with rfl | hq
    · exact h1
    · exact h2 q hq

/-- two values differ: the range is not nought -/
theorem extreme_range (c : Pt K → K) {l : List (Pt K)} {a b : Pt K} (ha : a ∈ l) (hb : b ∈ l) (hne : c a ≠ c b) :
    0 < extreme max c l - extreme min c l := by
  have h1 := extreme_min_le c ha
  have h2 := extreme_min_le c hb
  have h3 := le_extreme_max c ha
  have h4 := le_extreme_max c hb
  rcases lt_or_gt_of_ne hne with h | h <;> linarith

/-- the three sides of the container, for a point of the unit square -/
theorem container_side {c u v : K} (hc : 1 ≤ c) (hu0 : 0 ≤ u) (hu1 : u ≤ 1) (hv0 : 0 ≤ v) (hv1 : v ≤ 1) :
    0 < (1 + 16 / 10 * c) * (v + 1 / 10 * c) ∧
    0 < (-1 - 3 / 10 * c) * (v + 1 / 10 * c) - (1 + 9 / 10 * c) * (u - 1 - 8 / 10 * c) ∧
    0 < (-(13 / 10) * c) * (v - 1 - 8 / 10 * c) + (1 + 9 / 10 * c) * (u - 5 / 10 * c) := by
  have c0 : 0 < c := by linarith
  have cc : c ≤ c * c := by nlinarith
  refine ⟨?_, ?_, ?_⟩
  · exact mul_pos (by linarith) (by linarith)
  · have k1 : 0 ≤ (1 + 9 / 10 * c) * (1 - u) := mul_nonneg (by linarith) (by linarith)
    have k2 : 0 ≤ (1 + 3 / 10 * c) * (1 - v) := mul_nonneg (by linarith) (by linarith)
    nlinarith
  · have k1 : 0 ≤ (1 + 9 / 10 * c) * u := mul_nonneg (by linarith) hu0
    have k2 : 0 ≤ c * (1 - v) := mul_nonneg c0.le (by linarith)
    nlinarith

theorem frame (po : List (Pt K)) (csf : Option K) (hnd : po.Nodup) (hx : 0 < extreme max Pt.x po - extreme min Pt.x po)
    (hy : 0 < extreme max Pt.y po - extreme min Pt.y po) : Frame po.length (withContainer po csf) := by
  set x0 := extreme min Pt.x po with ex0
  set x1 := extreme max Pt.x po with ex1
  set y0 := extreme min Pt.y po with ey0
  set y1 := extreme max Pt.y po with ey1
  obtain ⟨c, hc, hcsf⟩ : ∃ c : K, 1 ≤ c ∧ factor csf = c := by
    unfold factor
    cases csf with
    | none => exact ⟨100, by norm_num, rfl⟩
    | some c => exact ⟨max 1 c, le_max_left _ _, rfl⟩
  have c0 : 0 < c := by linarith
  have pA : withContainer po csf po.length = ⟨x0 - 8 / 10 * c * (x1 - x0), y0 - 1 / 10 * c * (y1 - y0)⟩ := by
    unfold withContainer
    simp only [lt_irrefl, if_false, if_true]
    rw [hcsf]
  have pB : withContainer po csf (po.length + 1) = ⟨x1 + 8 / 10 * c * (x1 - x0), y0 - 1 / 10 * c * (y1 - y0)⟩ := by
    unfold withContainer
    simp only [if_neg (show ¬ po.length + 1 < po.length by omega), if_neg (show ¬ po.length + 1 = po.length by omega), if_true]
    rw [hcsf]
  have pC : withContainer po csf (po.length + 2) = ⟨x0 + 5 / 10 * c * (x1 - x0), y1 + 8 / 10 * c * (y1 - y0)⟩ := by
    unfold withContainer
    simp only [if_neg (show ¬ po.length + 2 < po.length by omega), if_neg (show ¬ po.length + 2 = po.length by omega),
      if_neg (show ¬ po.length + 2 = po.length + 1 by omega)]
    rw [hcsf]
  have pv : ∀ v (h : v < po.length), withContainer po csf v = po[v] := by
    intro v h
    unfold withContainer
    simp only [if_pos h, List.getElem?_eq_getElem h, Option.getD_some]
  constructor
  · intro v a b hv ho
    have hmem : po[v] ∈ po := List.getElem_mem hv
    have b1 : x0 ≤ po[v].x := extreme_min_le Pt.x hmem
    have b2 : po[v].x ≤ x1 := le_extreme_max Pt.x hmem
    have b3 : y0 ≤ po[v].y := extreme_min_le Pt.y hmem
    have b4 : po[v].y ≤ y1 := le_extreme_max Pt.y hmem
    obtain ⟨u, hu⟩ : ∃ u, po[v].x = x0 + u * (x1 - x0) := ⟨(po[v].x - x0) / (x1 - x0), by field_simp; ring⟩
    obtain ⟨w, hw⟩ : ∃ w, po[v].y = y0 + w * (y1 - y0) := ⟨(po[v].y - y0) / (y1 - y0), by field_simp; ring⟩
    have u0 : 0 ≤ u := by
      by_contra hn
      push Not at hn
      have := mul_neg_of_neg_of_pos hn hx
      linarith
    have u1 : u ≤ 1 := by
      by_contra hn
      push Not at hn
      have := mul_pos (sub_pos.mpr hn) hx
      linarith
    have w0 : 0 ≤ w := by
      by_contra hn
      push Not at hn
      have := mul_neg_of_neg_of_pos hn hy
      linarith
    have w1 : w ≤ 1 := by
      by_contra hn
      push Not at hn
      have := mul_pos (sub_pos.mpr hn) hy
      linarith
    obtain ⟨s1, s2, s3⟩ := container_side hc u0 u1 w0 w1
    have hxy := mul_pos hx hy
    rw [pv v hv]
    rcases ho with ⟨rfl, rfl⟩ | ⟨rfl, rfl⟩ | ⟨rfl, rfl⟩
    · rw [pA, pB]
      have := mul_pos hxy s1
      refine lt_of_lt_of_eq this ?_
      unfold orient
      simp only [hu, hw]
      ring
    · rw [pB, pC]
      have := mul_pos hxy s2
      refine lt_of_lt_of_eq this ?_
      unfold orient
      simp only [hu, hw]
      ring
    · rw [pC, pA]
      have := mul_pos hxy s3
      refine lt_of_lt_of_eq this ?_
      unfold orient
      simp only [hu, hw]
      ring
  · rw [pA, pB, pC]
    have h1 : 0 < (1 + 16 / 10 * c) * (1 + 9 / 10 * c) := mul_pos (by linarith) (by linarith)
    refine lt_of_lt_of_eq (mul_pos (mul_pos hx hy) h1) ?_
    unfold orient
    simp only
    ring
  · intro a b ha hb e
    rw [pv a ha, pv b hb] at e
    exact (List.Nodup.getElem_inj_iff hnd).mp e

end Verif.Delaunay
