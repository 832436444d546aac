import Verif.Geom.Spec
import Mathlib.Analysis.SpecialFunctions.Sqrt
import Mathlib.Tactic.Ring
import Mathlib.Tactic.Linarith
import Mathlib.Tactic.LinearCombination
import Mathlib.Tactic.FieldSimp
import Mathlib.Tactic.Positivity

/-! # C88: lines in the plane -/

namespace Verif.Geom

section
variable {K : Type} [Field K] [LinearOrder K]

/-- two lines, each given by two points, are parallel, or the points of one are not distinct -/
def ParallelLines (a b c d : K × K) : Prop :=
  ∃ e f : K, (e ≠ 0 ∨ f ≠ 0) ∧ e * (b.1 - a.1) + f * (d.1 - c.1) = 0 ∧ e * (b.2 - a.2) + f * (d.2 - c.2) = 0

/-- the divisor -/
def divisorOf (a b c d : K × K) : K := (a.1 - b.1) * (c.2 - d.2) - (a.2 - b.2) * (c.1 - d.1)

theorem parallelLines_iff (a b c d : K × K) : ParallelLines a b c d ↔ divisorOf a b c d = 0 := by
  unfold divisorOf
  constructor
  · rintro ⟨e, f, hne, h1, h2⟩
    rcases hne with h | h
    · have : e * ((a.1 - b.1) * (c.2 - d.2) - (a.2 - b.2) * (c.1 - d.1)) = 0 := by
        linear_combination (d.2 - c.2) * h1 - (d.1 - c.1) * h2
      exact (mul_eq_zero.mp this).resolve_left h
    · have : f * ((a.1 - b.1) * (c.2 - d.2) - (a.2 - b.2) * (c.1 - d.1)) = 0 := by
        linear_combination (b.1 - a.1) * h2 - (b.2 - a.2) * h1
      exact (mul_eq_zero.mp this).resolve_left h
  · intro h
    by_cases h1 : d.1 - c.1 = 0
    · by_cases h2 : d.2 - c.2 = 0
      · exact ⟨0, 1, Or.inr one_ne_zero, by rw [h1]; ring, by rw [h2]; ring⟩
      · exact ⟨d.2 - c.2, -(b.2 - a.2), Or.inl h2, by linear_combination h, by ring⟩
    · exact ⟨d.1 - c.1, -(b.1 - a.1), Or.inl h1, by ring, by linear_combination -h⟩

theorem meet2 {a b c d : K × K} (hd : divisorOf a b c d ≠ 0) (t u : K) :
    (a.1 + t * (b.1 - a.1) = c.1 + u * (d.1 - c.1) ∧ a.2 + t * (b.2 - a.2) = c.2 + u * (d.2 - c.2)) ↔
      t = ((a.1 - c.1) * (c.2 - d.2) - (a.2 - c.2) * (c.1 - d.1)) / divisorOf a b c d ∧
      u = -((a.1 - b.1) * (a.2 - c.2) - (a.2 - b.2) * (a.1 - c.1)) / divisorOf a b c d := by
  constructor
  · rintro ⟨h1, h2⟩
    constructor
    · rw [eq_div_iff hd]
      unfold divisorOf
      linear_combination (d.2 - c.2) * h1 - (d.1 - c.1) * h2
    · rw [eq_div_iff hd]
      unfold divisorOf
      linear_combination (b.2 - a.2) * h1 - (b.1 - a.1) * h2
  · rintro ⟨rfl, rfl⟩
    constructor
    · field_simp
      unfold divisorOf
      ring
    · field_simp
      unfold divisorOf
      ring

/-- C88: unbounded lines meet in the point returned; there is none exactly if they are parallel. -/
theorem C88_lines (a b c d q : K × K) (half : Bool) :
    (lineLine a.1 a.2 b.1 b.2 c.1 c.2 d.1 d.2 false half = some q ↔
      ¬ ParallelLines a b c d ∧ (∃ t, At a b t q) ∧ ∃ u, At c d u q) ∧
    (lineLine a.1 a.2 b.1 b.2 c.1 c.2 d.1 d.2 false half = none ↔ ParallelLines a b c d) := by
  rw [parallelLines_iff]
  unfold lineLine
  dsimp only
  rw [show (a.1 - b.1) * (c.2 - d.2) - (a.2 - b.2) * (c.1 - d.1) = divisorOf a b c d from rfl]
  by_cases hd : divisorOf a b c d = 0
  · rw [if_pos hd]
    exact ⟨⟨fun h => (by cases h), fun h => absurd hd h.1⟩, ⟨fun _ => hd, fun _ => rfl⟩⟩
  rw [if_neg hd]
  refine ⟨⟨?_, ?_⟩, ⟨fun h => (by cases h), fun h => absurd h hd⟩⟩
  · intro h
    cases h
    refine ⟨hd, ⟨((a.1 - c.1) * (c.2 - d.2) - (a.2 - c.2) * (c.1 - d.1)) / divisorOf a b c d, ?_, ?_⟩,
      ⟨-((a.1 - b.1) * (a.2 - c.2) - (a.2 - b.2) * (a.1 - c.1)) / divisorOf a b c d, ?_, ?_⟩⟩
    · field_simp
      unfold divisorOf
      ring
    · field_simp
      unfold divisorOf
      ring
    · field_simp
      unfold divisorOf
      ring
    · field_simp
      unfold divisorOf
      ring
  · rintro ⟨-, ⟨t, a1, a2⟩, ⟨u, b1, b2⟩⟩
    obtain ⟨e1, e2⟩ := (meet2 hd t u).mp ⟨by rw [← a1, b1], by rw [← a2, b2]⟩
    rw [if_neg Bool.false_ne_true]
    refine congrArg some (Prod.ext ?_ ?_)
    · rw [a1, e1]
      field_simp
      unfold divisorOf
      ring
    · rw [a2, e1]
      field_simp
      unfold divisorOf
      ring

/-- C88: bounded lines: the second between its points, both included; the first likewise, or if `half` only bounded by its first. -/
theorem C88_segments (a b c d q : K × K) (half : Bool) :
    lineLine a.1 a.2 b.1 b.2 c.1 c.2 d.1 d.2 true half = some q ↔
      ¬ ParallelLines a b c d ∧ (∃ t, 0 ≤ t ∧ (half = false → t ≤ 1) ∧ At a b t q) ∧ ∃ u, 0 ≤ u ∧ u ≤ 1 ∧ At c d u q := by
  rw [parallelLines_iff]
  unfold lineLine
  dsimp only
  rw [show (a.1 - b.1) * (c.2 - d.2) - (a.2 - b.2) * (c.1 - d.1) = divisorOf a b c d from rfl]
  by_cases hd : divisorOf a b c d = 0
  · rw [if_pos hd]
    exact ⟨fun h => (by cases h), fun h => absurd hd h.1⟩
  rw [if_neg hd, if_pos rfl]
  have hm := (meet2 (a := a) (b := b) (c := c) (d := d) hd _ _).mpr ⟨rfl, rfl⟩
  constructor
  · intro h
    split at h
    · cases h
    rename_i h1
    split at h
    · cases h
    rename_i h2
    cases h
    rw [not_or, not_and, not_lt, gt_iff_lt, not_lt] at h1
    rw [not_not] at h2
    exact ⟨hd, ⟨_, h1.1, h1.2, rfl, rfl⟩, _, h2.1, h2.2, hm.1, hm.2⟩
  · rintro ⟨-, ⟨t, t0, t1, a1, a2⟩, ⟨u, u0, u1, b1, b2⟩⟩
    obtain ⟨e1, e2⟩ := (meet2 hd t u).mp ⟨by rw [← a1, b1], by rw [← a2, b2]⟩
    rw [← e1, ← e2, if_neg, if_neg]
    · congr 1
      exact Prod.ext a1.symm a2.symm
    · rw [not_not]; exact ⟨u0, u1⟩
    · rw [not_or, not_and, not_lt, gt_iff_lt, not_lt]; exact ⟨t0, t1⟩

/-! ## Nearest points -/

variable [IsStrictOrderedRing K]

/-- square of the length of the vector between two points -/
def norm2 (a b : K × K) : K := (b.1 - a.1) * (b.1 - a.1) + (b.2 - a.2) * (b.2 - a.2)

theorem norm2_pos {a b : K × K} (h : a ≠ b) : 0 < norm2 a b := by
  unfold norm2
  rcases eq_or_ne a.1 b.1 with h1 | h1
  · have h2 : a.2 ≠ b.2 := fun h2 => h (Prod.ext h1 h2)
    have := mul_self_pos.mpr (sub_ne_zero.mpr h2.symm)
    nlinarith [mul_self_nonneg (b.1 - a.1)]
  · have := mul_self_pos.mpr (sub_ne_zero.mpr h1.symm)
    nlinarith [mul_self_nonneg (b.2 - a.2)]

/-- distance along the line as a fraction, times the square of the length -/
def dotOf (p l1 l2 : K × K) : K := (p.1 - l1.1) * (l2.1 - l1.1) + (p.2 - l1.2) * (l2.2 - l1.2)

omit [IsStrictOrderedRing K] [LinearOrder K] in
theorem dist2_at {p l1 l2 r : K × K} {s : K} (h : At l1 l2 s r) :
    dist2 p r = dist2 p l1 - 2 * s * dotOf p l1 l2 + s * s * norm2 l1 l2 := by
  unfold dist2 dotOf norm2
  rw [h.1, h.2]
  ring

theorem projected_eq {p l1 l2 : K × K} (h : l1 ≠ l2) :
    ∃ q, projectedToLine p l1 l2 = some q ∧ At l1 l2 (dotOf p l1 l2 / norm2 l1 l2) q := by
  have hn := norm2_pos h
  have hdiv : divisorOf l1 l2 p (p.1 + -(l2.2 - l1.2), p.2 + (l2.1 - l1.1)) = norm2 l1 l2 := by
    unfold divisorOf norm2
    dsimp only
    ring
  cases hq : projectedToLine p l1 l2 with
  | none =>
    have := (C88_lines l1 l2 p (p.1 + -(l2.2 - l1.2), p.2 + (l2.1 - l1.1)) (0, 0) false).2.mp hq
    rw [parallelLines_iff, hdiv] at this
    rw [this] at hn
    exact absurd hn (lt_irrefl _)
  | some q =>
    obtain ⟨-, ⟨t, ht⟩, ⟨u, hu⟩⟩ := (C88_lines l1 l2 p (p.1 + -(l2.2 - l1.2), p.2 + (l2.1 - l1.1)) q false).1.mp hq
    refine ⟨q, rfl, ?_⟩
    have : t = dotOf p l1 l2 / norm2 l1 l2 := by
      rw [eq_div_iff (ne_of_gt hn)]
      have e1 := ht.1.symm.trans hu.1
      have e2 := ht.2.symm.trans hu.2
      unfold dotOf norm2
      dsimp only at e1 e2
      linear_combination (l2.1 - l1.1) * e1 + (l2.2 - l1.2) * e2
    rw [← this]
    exact ht

/-- C88: the point of a line which is nearest to a point -/
theorem C88_projected {p l1 l2 : K × K} (h : l1 ≠ l2) :
    ∃ q t, projectedToLine p l1 l2 = some q ∧ At l1 l2 t q ∧ ∀ s r, At l1 l2 s r → dist2 p q ≤ dist2 p r := by
  obtain ⟨q, h1, h2⟩ := projected_eq (p := p) h
  refine ⟨q, _, h1, h2, ?_⟩
  intro s r hr
  have hn := norm2_pos h
  rw [dist2_at h2, dist2_at hr]
  have e : dotOf p l1 l2 = dotOf p l1 l2 / norm2 l1 l2 * norm2 l1 l2 := (div_mul_cancel₀ _ (ne_of_gt hn)).symm
  generalize dotOf p l1 l2 / norm2 l1 l2 = t at *
  rw [e]
  nlinarith [mul_nonneg (mul_self_nonneg (s - t)) (le_of_lt hn)]

/-- C88 (partial): the point of a segment which is nearest to a point.  Missing: segments of no length, see `C88_snapped_violated`. -/
theorem C88_snapped_partial {p l1 l2 : K × K} (h : l1 ≠ l2) :
    ∃ q t, snappedToSegment p l1 l2 = some q ∧ 0 ≤ t ∧ t ≤ 1 ∧ At l1 l2 t q ∧
      ∀ s r, 0 ≤ s → s ≤ 1 → At l1 l2 s r → dist2 p q ≤ dist2 p r := by
  have hn := norm2_pos h
  have o1 : (p.1 - l1.1) * (l2.1 - l1.1) + (p.2 - l1.2) * (l2.2 - l1.2) = dotOf p l1 l2 := rfl
  have o2 : (p.1 - l2.1) * (l1.1 - l2.1) + (p.2 - l2.2) * (l1.2 - l2.2) = norm2 l1 l2 - dotOf p l1 l2 := by
    unfold norm2 dotOf
    ring
  unfold snappedToSegment isObtuse
  rw [o1, o2]
  by_cases h1 : dotOf p l1 l2 < 0
  · rw [if_pos (decide_eq_true h1)]
    have ha : At l1 l2 0 l1 := ⟨by ring, by ring⟩
    refine ⟨l1, 0, rfl, le_refl _, zero_le_one, ha, ?_⟩
    intro s r s0 s1 hr
    rw [dist2_at hr]
    nlinarith [mul_nonneg (mul_nonneg s0 s0) (le_of_lt hn), mul_nonneg s0 (le_of_lt (neg_pos.mpr h1))]
  · rw [if_neg (by simpa using h1)]
    by_cases h2 : norm2 l1 l2 - dotOf p l1 l2 < 0
    · rw [if_pos (decide_eq_true h2)]
      have ha : At l1 l2 1 l2 := ⟨by ring, by ring⟩
      refine ⟨l2, 1, rfl, zero_le_one, le_refl _, ha, ?_⟩
      intro s r s0 s1 hr
      rw [dist2_at hr, dist2_at ha]
      nlinarith [mul_nonneg (sub_nonneg.mpr s1) (le_of_lt (neg_pos.mpr h2)), mul_nonneg (mul_self_nonneg (1 - s)) (le_of_lt hn)]
    · rw [if_neg (by simpa using h2)]
      obtain ⟨q, t, hq, ht, hmin⟩ := C88_projected (p := p) h
      obtain ⟨q', hq', ht'⟩ := projected_eq (p := p) h
      rw [hq] at hq'
      cases hq'
      refine ⟨q, _, hq, div_nonneg (not_lt.mp h1) (le_of_lt hn), ?_, ht', fun s r _ _ hr => hmin s r hr⟩
      rw [div_le_one hn]
      linarith [not_lt.mp h2]

omit [IsStrictOrderedRing K] in
/-- C88 (violated): for a segment of no length nothing is returned, though the nearest point is its only one; not so for the distance,
see `C88_distance_segment`. -/
theorem C88_snapped_violated (p l : K × K) : snappedToSegment p l l = none := by
  unfold snappedToSegment isObtuse
  simp only [sub_self, mul_zero, add_zero, lt_irrefl, decide_false, Bool.false_eq_true, if_false]
  unfold projectedToLine lineLine
  simp

end

/-! ## Distances -/

/-- vector_utilities.py:262-264 `naive_2d_length` -/
noncomputable def len2 (v : ℝ × ℝ) : ℝ := Real.sqrt (v.1 * v.1 + v.2 * v.2)

/-- vector_utilities.py:1381-1387 `point_distance_to_line_2d` -/
noncomputable def distToLine (p l1 l2 : ℝ × ℝ) : ℝ :=
  if l2.1 = l1.1 ∧ l2.2 = l1.2 then len2 (p.1 - l1.1, p.2 - l1.2)
  else |p.1 * (l1.2 - l2.2) + l1.1 * (l2.2 - p.2) + l2.1 * (p.2 - l1.2)| / len2 (l2.1 - l1.1, l2.2 - l1.2)

/-- vector_utilities.py:1390-1398 `point_distance_to_line_segment_2d` -/
noncomputable def distToSegment (p l1 l2 : ℝ × ℝ) : ℝ :=
  if isObtuse l1 p l2 then len2 (p.1 - l1.1, p.2 - l1.2)
  else if isObtuse l2 p l1 then len2 (p.1 - l2.1, p.2 - l2.2)
  else distToLine p l1 l2

/-- distance between points -/
noncomputable def distance (a b : ℝ × ℝ) : ℝ := Real.sqrt ((a.1 - b.1) ^ 2 + (a.2 - b.2) ^ 2)

theorem distance_eq (a b : ℝ × ℝ) : distance a b = Real.sqrt (dist2 a b) := by
  unfold distance dist2
  congr 1
  ring

theorem len2_eq (a b : ℝ × ℝ) : len2 (a.1 - b.1, a.2 - b.2) = distance a b := by
  rw [distance_eq]
  rfl

theorem distToLine_eq {p l1 l2 q : ℝ × ℝ} (h : l1 ≠ l2) (hq : At l1 l2 (dotOf p l1 l2 / norm2 l1 l2) q) :
    distToLine p l1 l2 = distance p q := by
  have hn := norm2_pos h
  unfold distToLine
  rw [if_neg (fun e => h (Prod.ext e.1.symm e.2.symm)), distance_eq, dist2_at hq]
  have e2 : len2 (l2.1 - l1.1, l2.2 - l1.2) = Real.sqrt (norm2 l1 l2) := rfl
  rw [e2, ← Real.sqrt_sq_eq_abs, ← Real.sqrt_div (sq_nonneg _)]
  congr 1
  rw [div_eq_iff (ne_of_gt hn)]
  have e : dotOf p l1 l2 / norm2 l1 l2 * norm2 l1 l2 = dotOf p l1 l2 := div_mul_cancel₀ _ (ne_of_gt hn)
  have key : (p.1 * (l1.2 - l2.2) + l1.1 * (l2.2 - p.2) + l2.1 * (p.2 - l1.2)) ^ 2 =
      dist2 p l1 * norm2 l1 l2 - dotOf p l1 l2 * dotOf p l1 l2 := by
    unfold dist2 norm2 dotOf
    ring
  rw [key]
  generalize dotOf p l1 l2 / norm2 l1 l2 = t at e
  rw [← e]
  ring

/-- C88: the distance from a line is that to the nearest of its points; if two points given for it coincide, to that point. -/
theorem C88_distance_line (p l1 l2 : ℝ × ℝ) :
    (∃ t q, At l1 l2 t q ∧ distToLine p l1 l2 = distance p q) ∧ ∀ s r, At l1 l2 s r → distToLine p l1 l2 ≤ distance p r := by
  by_cases h : l1 = l2
  · subst h
    have e : distToLine p l1 l1 = distance p l1 := by
      unfold distToLine
      rw [if_pos ⟨rfl, rfl⟩, len2_eq]
    refine ⟨⟨0, l1, ⟨by ring, by ring⟩, e⟩, ?_⟩
    intro s r hr
    have : r = l1 := Prod.ext (by rw [hr.1]; ring) (by rw [hr.2]; ring)
    rw [this, e]
  · obtain ⟨q, t, hq, -, hmin⟩ := C88_projected (p := p) h
    obtain ⟨q', hq', ht'⟩ := projected_eq (p := p) h
    rw [hq] at hq'
    cases hq'
    have e := distToLine_eq h ht'
    refine ⟨⟨_, q, ht', e⟩, ?_⟩
    intro s r hr
    rw [e, distance_eq, distance_eq]
    exact Real.sqrt_le_sqrt (hmin s r hr)

/-- C88: the distance from a segment is that to the nearest of its points. -/
theorem C88_distance_segment (p l1 l2 : ℝ × ℝ) :
    (∃ t q, 0 ≤ t ∧ t ≤ 1 ∧ At l1 l2 t q ∧ distToSegment p l1 l2 = distance p q) ∧
      ∀ s r, 0 ≤ s → s ≤ 1 → At l1 l2 s r → distToSegment p l1 l2 ≤ distance p r := by
  by_cases h : l1 = l2
  · subst h
    have e : distToSegment p l1 l1 = distance p l1 := by
      unfold distToSegment isObtuse
      simp only [sub_self, mul_zero, add_zero, lt_irrefl, decide_false, Bool.false_eq_true, if_false]
      unfold distToLine
      rw [if_pos ⟨rfl, rfl⟩, len2_eq]
    refine ⟨⟨0, l1, le_refl _, zero_le_one, ⟨by ring, by ring⟩, e⟩, ?_⟩
    intro s r _ _ hr
    have : r = l1 := Prod.ext (by rw [hr.1]; ring) (by rw [hr.2]; ring)
    rw [this, e]
  · obtain ⟨q, t, hq, t0, t1, ht, hmin⟩ := C88_snapped_partial (p := p) h
    have e : distToSegment p l1 l2 = distance p q := by
      unfold snappedToSegment at hq
      unfold distToSegment
      split at hq
      · rename_i h1
        cases hq
        rw [if_pos h1, len2_eq]
      · rename_i h1
        rw [if_neg h1]
        split at hq
        · rename_i h2
          cases hq
          rw [if_pos h2, len2_eq]
        · rename_i h2
          rw [if_neg h2]
          obtain ⟨q', hq', ht'⟩ := projected_eq (p := p) h
          rw [hq] at hq'
          cases hq'
          exact distToLine_eq h ht'
    refine ⟨⟨t, q, t0, t1, ht, e⟩, ?_⟩
    intro s r s0 s1 hr
    rw [e, distance_eq, distance_eq]
    exact Real.sqrt_le_sqrt (hmin s r s0 s1 hr)

/-! ## Cases -/

/-- crossing lines, of which only one as a segment reaches the other -/
example : lineLine (0 : ℚ) 0 1 1 0 4 4 0 false false = some (2, 2) ∧ lineLine (0 : ℚ) 0 1 1 0 4 4 0 true false = none ∧
    lineLine (0 : ℚ) 0 1 1 0 4 4 0 true true = some (2, 2) ∧ lineLine (0 : ℚ) 0 1 1 0 4 4 8 false false = none := by decide +kernel

example : snappedToSegment ((-1, 3) : ℚ × ℚ) (0, 0) (4, 4) = some (1, 1) ∧ snappedToSegment ((-2, 1) : ℚ × ℚ) (0, 0) (4, 4) = some (0, 0) ∧
    snappedToSegment ((9, 1) : ℚ × ℚ) (0, 0) (4, 4) = some (4, 4) := by decide +kernel

end Verif.Geom
