import Verif.Polyline.Nearest
import Verif.Polyline.PropsConvex

/-! # C132: nearest pieces and crossings of polylines in plan -/

namespace Verif.Polyline
open Verif.Py
open Verif.Wells.Survey (V3)
open Verif.Geom (distToSegment snappedToSegment lineLine At distance dist2 C88_distance_segment C88_snapped_partial C88_segments ParallelLines)

/-! ## Specification -/

/-- `q` is on piece `i` in plan -/
def Line.OnPiece (l : Line) (i : Nat) (q : ℝ × ℝ) : Prop := ∃ t : ℝ, 0 ≤ t ∧ t ≤ 1 ∧ At (pt (l.start i)) (pt (l.stop i)) t q

/-- piece `i` is met in one point by the line through two points: it is neither parallel to it nor without length in plan -/
def Line.Across (l : Line) (a b : ℝ × ℝ) (i : Nat) : Prop := ¬ ParallelLines a b (pt (l.start i)) (pt (l.stop i))

/-- `q` is on the line from `a` to `b`, or the half line which goes on beyond `b` -/
def Ahead (a b : ℝ × ℝ) (half : Bool) (q : ℝ × ℝ) : Prop := ∃ t : ℝ, 0 ≤ t ∧ (half = false → t ≤ 1) ∧ At a b t q

/-! ## Nearest piece -/

/-- the distance from piece `i` -/
noncomputable def Line.off (l : Line) (p : ℝ × ℝ) (i : Nat) : ℝ := distToSegment p (pt (l.start i)) (pt (l.stop i))

theorem keepLess_of {l : Line} {p : ℝ × ℝ} {best : Nat × ℝ} {k : Nat} (h1 : best.1 < k) (h2 : best.2 = l.off p best.1)
    (h3 : ∀ i < k, best.2 ≤ l.off p i) (h4 : ∀ i < best.1, best.2 < l.off p i) :
    (keepLess best k (l.off p k)).1 < k + 1 ∧ (keepLess best k (l.off p k)).2 = l.off p (keepLess best k (l.off p k)).1 ∧
    (∀ i < k + 1, (keepLess best k (l.off p k)).2 ≤ l.off p i) ∧ ∀ i < (keepLess best k (l.off p k)).1, (keepLess best k (l.off p k)).2 < l.off p i := by
  unfold keepLess
  by_cases h : l.off p k < best.2
  · rw [if_pos h]
    refine ⟨by simp, rfl, ?_, ?_⟩
    · intro i hi
      rcases Nat.lt_succ_iff_lt_or_eq.mp hi with g | g
      · exact le_trans (le_of_lt h) (h3 i g)
      · rw [g]
    · intro i hi
      exact lt_of_lt_of_le h (h3 i hi)
  · rw [if_neg h]
    refine ⟨by omega, h2, ?_, h4⟩
    intro i hi
    rcases Nat.lt_succ_iff_lt_or_eq.mp hi with g | g
    · exact h3 i g
    · rw [g]
      exact not_lt.mp h

theorem closestTo_of (l : Line) (p : ℝ × ℝ) : ∀ k, k + 1 < l.n →
    (l.closestTo p k).1 < k + 1 ∧ (l.closestTo p k).2 = l.off p (l.closestTo p k).1 ∧
    (∀ i < k + 1, (l.closestTo p k).2 ≤ l.off p i) ∧ ∀ i < (l.closestTo p k).1, (l.closestTo p k).2 < l.off p i
  | 0, h => by
    have e : (l.closestTo p 0) = (0, l.off p 0) := by
      unfold Line.closestTo Line.off Line.start Line.stop
      rw [if_neg (by omega)]
    rw [e]
    refine ⟨by simp, rfl, ?_, ?_⟩
    · intro i hi
      have : i = 0 := by omega
      rw [this]
    · intro i hi
      exact absurd hi (Nat.not_lt_zero i)
  | k + 1, h => by
    obtain ⟨h1, h2, h3, h4⟩ := closestTo_of l p k (by omega)
    have e : l.closestTo p (k + 1) = keepLess (l.closestTo p k) (k + 1) (l.off p (k + 1)) := by
      unfold Line.off Line.start Line.stop
      rw [if_neg (by omega), Line.closestTo.eq_2]
    rw [e]
    exact keepLess_of h1 h2 h3 h4

theorem closest_of (l : Line) (p : ℝ × ℝ) (h : 2 ≤ l.n) : ∃ k d, l.closest p = .ok (k, d) ∧ k < l.pieces ∧ d = l.off p k ∧
    (∀ i < l.pieces, d ≤ l.off p i) ∧ ∀ i < k, d < l.off p i := by
  obtain ⟨h1, h2, h3, h4⟩ := closestTo_of l p (l.n - 2) (by omega)
  rw [show l.n - 2 + 1 = l.n - 1 by omega] at h1 h3
  unfold Line.closest Line.pieces
  rw [if_neg (by omega)]
  simp only
  cases hc : l.closed
  · simp only [Bool.false_eq_true, if_false]
    exact ⟨_, _, rfl, h1, h2, h3, h4⟩
  · simp only [if_true]
    have e : distToSegment p (pt (l.c (l.n - 1))) (pt (l.c 0)) = l.off p (l.n - 1) := by
      unfold Line.off Line.start Line.stop
      rw [if_pos (by omega)]
    rw [e]
    obtain ⟨g1, g2, g3, g4⟩ := keepLess_of h1 h2 h3 h4
    rw [show l.n - 1 + 1 = l.n by omega] at g1 g3
    exact ⟨_, _, rfl, g1, g2, g3, g4⟩

/-- C132: of a polyline with at least two nodes, the closest piece to a point in plan and its distance: the distance is that of a point of the
piece, no point of the polyline is nearer, and pieces before it are farther. -/
theorem C132_closest (l : Line) (p : ℝ × ℝ) (h : 2 ≤ l.n) : ∃ k d, l.closest p = .ok (k, d) ∧ k < l.pieces ∧
    (∃ q, l.OnPiece k q ∧ d = distance p q) ∧ (∀ i < l.pieces, ∀ q, l.OnPiece i q → d ≤ distance p q) ∧
    ∀ i < k, ∀ q, l.OnPiece i q → d < distance p q := by
  obtain ⟨k, d, h1, h2, h3, h4, h5⟩ := closest_of l p h
  refine ⟨k, d, h1, h2, ?_, ?_, ?_⟩
  · obtain ⟨t, q, t0, t1, hq, e⟩ := (C88_distance_segment p (pt (l.start k)) (pt (l.stop k))).1
    exact ⟨q, ⟨t, t0, t1, hq⟩, by rw [h3]; exact e⟩
  · rintro i hi q ⟨t, t0, t1, hq⟩
    exact le_trans (h4 i hi) ((C88_distance_segment p (pt (l.start i)) (pt (l.stop i))).2 t q t0 t1 hq)
  · rintro i hi q ⟨t, t0, t1, hq⟩
    exact lt_of_lt_of_le (h5 i hi) ((C88_distance_segment p (pt (l.start i)) (pt (l.stop i))).2 t q t0 t1 hq)

theorem ends_of (l : Line) {i : Nat} (h : i < l.pieces) : l.ends i = .ok (l.start i, l.stop i) := by
  unfold Line.pieces at h
  unfold Line.ends Line.start Line.stop
  by_cases e : i + 1 = l.n
  · rw [if_pos e, if_pos e, show l.n - 1 = i by omega]
  · rw [if_neg e, if_neg e, if_pos]
    split at h <;> omega

theorem pt_ne {a b : V3} (h : ¬ (a 0 = b 0 ∧ a 1 = b 1)) : pt a ≠ pt b := fun e => h ⟨congrArg Prod.fst e, congrArg Prod.snd e⟩

/-- C132: a point is snapped to the nearest point of a piece, if it has length in plan. -/
theorem C132_snapped_partial (l : Line) (p : ℝ × ℝ) {i : Nat} (h : i < l.pieces) (hn : ¬ (l.start i 0 = l.stop i 0 ∧ l.start i 1 = l.stop i 1)) :
    ∃ q, l.snapped i p = .ok (some q) ∧ l.OnPiece i q ∧ ∀ r, l.OnPiece i r → dist2 p q ≤ dist2 p r := by
  obtain ⟨q, t, h1, t0, t1, hq, hmin⟩ := C88_snapped_partial (p := p) (pt_ne hn)
  unfold Line.snapped
  rw [ends_of l h]
  refine ⟨q, by rw [← h1], ⟨t, t0, t1, hq⟩, ?_⟩
  rintro r ⟨s, s0, s1, hr⟩
  exact hmin s r s0 s1 hr

/-- C132, negation: there is no point snapped to a piece without length in plan, though it has a point. -/
theorem C132_snapped_violated (l : Line) (p : ℝ × ℝ) {i : Nat} (h : i < l.pieces) (hn : l.start i 0 = l.stop i 0 ∧ l.start i 1 = l.stop i 1) :
    l.snapped i p = .ok none ∧ l.OnPiece i (pt (l.start i)) := by
  have e : pt (l.start i) = pt (l.stop i) := Prod.ext hn.1 hn.2
  unfold Line.snapped
  rw [ends_of l h]
  refine ⟨?_, 0, le_refl _, zero_le_one, by unfold At; constructor <;> ring⟩
  simp only
  rw [← e, Verif.Geom.C88_snapped_violated]

/-- C132, negation: for an open polyline, an index one beyond its last piece is taken to be a piece from the last node back to the first. -/
theorem C132_open_violated : ∃ (l : Line), l.closed = false ∧ l.pieces = 2 ∧ ∃ q, l.snapped 2 (1, 1) = .ok (some q) ∧ ∀ i < l.pieces, ¬ l.OnPiece i q := by
  refine ⟨{ n := 3, c := fun i => if i = 0 then ![0, 0, 0] else if i = 1 then ![2, 0, 0] else ![2, 2, 0], closed := false }, rfl, rfl, (1, 1), ?_, ?_⟩
  · unfold Line.snapped Line.ends snappedToSegment Verif.Geom.isObtuse Verif.Geom.projectedToLine lineLine pt
    norm_num
  · intro i hi
    have : i = 0 ∨ i = 1 := by
      have : i < 2 := hi
      omega
    rintro ⟨t, t0, t1, e1, e2⟩
    rcases this with rfl | rfl
    · norm_num [Line.start, Line.stop, pt] at e2
    · norm_num [Line.start, Line.stop, pt] at e1

theorem fractionAlong_of {a b t : ℝ} (t0 : 0 ≤ t) (t1 : t ≤ 1) (h : a ≠ b) : fractionAlong a b (a + t * (b - a)) = .ok t := by
  have hd : b - a ≠ 0 := fun e => h (by linarith)
  unfold fractionAlong
  have e1 : (a + t * (b - a) - a) * (a + t * (b - a) - b) ≤ 0 := by
    have : (a + t * (b - a) - a) * (a + t * (b - a) - b) = -(t * (1 - t) * (b - a) ^ 2) := by ring
    rw [this]
    have : 0 ≤ t * (1 - t) := mul_nonneg t0 (by linarith)
    have : 0 ≤ t * (1 - t) * (b - a) ^ 2 := by positivity
    linarith
  rw [if_neg (not_not.mpr e1), if_neg hd]
  have e : (a + t * (b - a) - a) / (b - a) = t := by
    rw [add_sub_cancel_left, mul_div_assoc, div_self hd, mul_one]
  simp only [e]
  rw [if_pos ⟨t0, t1⟩]

/-- C132: back from the plan: for a point of a piece which has length in plan, the point of the piece in three dimensions which is above it. -/
theorem C132_xyz (l : Line) {i : Nat} (h : i < l.pieces) (hn : ¬ (l.start i 0 = l.stop i 0 ∧ l.start i 1 = l.stop i 1)) (t : ℝ) (t0 : 0 ≤ t) (t1 : t ≤ 1) :
    ∃ q, l.segmentXyz i (l.start i 0 + t * (l.stop i 0 - l.start i 0)) (l.start i 1 + t * (l.stop i 1 - l.start i 1)) = .ok q ∧
      ∀ a, q a = l.start i a + t * (l.stop i a - l.start i a) := by
  unfold Line.segmentXyz
  rw [ends_of l h]
  simp only
  have e : (if |l.stop i 0 - l.start i 0| > |l.stop i 1 - l.start i 1| then
      fractionAlong (l.start i 0) (l.stop i 0) (l.start i 0 + t * (l.stop i 0 - l.start i 0))
      else fractionAlong (l.start i 1) (l.stop i 1) (l.start i 1 + t * (l.stop i 1 - l.start i 1))) = .ok t := by
    by_cases hc : |l.stop i 0 - l.start i 0| > |l.stop i 1 - l.start i 1|
    · rw [if_pos hc]
      refine fractionAlong_of t0 t1 fun he => ?_
      rw [he, sub_self, abs_zero] at hc
      exact absurd hc (not_lt.mpr (abs_nonneg _))
    · rw [if_neg hc]
      refine fractionAlong_of t0 t1 fun he => hn ⟨?_, he⟩
      rw [he, sub_self, abs_zero, not_lt] at hc
      have := abs_eq_zero.mp (le_antisymm hc (abs_nonneg _))
      linarith
  rw [e]
  refine ⟨_, rfl, fun a => ?_⟩
  simp only [Pi.add_apply, Pi.smul_apply, smul_eq_mul]
  ring

/-- C132: whatever is given, a result is a point of the piece; there is none for a piece without length in plan. -/
theorem C132_xyz_on (l : Line) {i : Nat} (h : i < l.pieces) (x y : ℝ) :
    (∀ q, l.segmentXyz i x y = .ok q → ∃ t : ℝ, 0 ≤ t ∧ t ≤ 1 ∧ ∀ a, q a = l.start i a + t * (l.stop i a - l.start i a)) ∧
    (l.start i 0 = l.stop i 0 → l.start i 1 = l.stop i 1 → l.segmentXyz i x y = .error .assertion) := by
  have key : ∀ a b v f : ℝ, fractionAlong a b v = .ok f → 0 ≤ f ∧ f ≤ 1 := by
    intro a b v f hf
    unfold fractionAlong at hf
    by_cases h1 : ¬ ((v - a) * (v - b) ≤ 0)
    · rw [if_pos h1] at hf; exact absurd hf (by simp)
    · rw [if_neg h1] at hf
      by_cases h2 : b - a = 0
      · rw [if_pos h2] at hf; exact absurd hf (by simp)
      · rw [if_neg h2] at hf
        simp only at hf
        by_cases h3 : 0 ≤ (v - a) / (b - a) ∧ (v - a) / (b - a) ≤ 1
        · rw [if_pos h3] at hf
          rw [← Except.ok.inj hf]
          exact h3
        · rw [if_neg h3] at hf; exact absurd hf (by simp)
  constructor
  · intro q hq
    unfold Line.segmentXyz at hq
    rw [ends_of l h] at hq
    simp only at hq
    cases hf : (if |l.stop i 0 - l.start i 0| > |l.stop i 1 - l.start i 1| then
      fractionAlong (l.start i 0) (l.stop i 0) x else fractionAlong (l.start i 1) (l.stop i 1) y) with
    | error e => rw [hf] at hq; exact absurd hq (by simp)
    | ok f =>
      rw [hf] at hq
      have e := Except.ok.inj hq
      have hb : 0 ≤ f ∧ f ≤ 1 := by
        by_cases hc : |l.stop i 0 - l.start i 0| > |l.stop i 1 - l.start i 1|
        · rw [if_pos hc] at hf
          exact key _ _ _ _ hf
        · rw [if_neg hc] at hf
          exact key _ _ _ _ hf
      refine ⟨f, hb.1, hb.2, fun a => ?_⟩
      rw [← e]
      simp only [Pi.add_apply, Pi.smul_apply, smul_eq_mul]
      ring
  · intro e0 e1
    have : ∀ a v : ℝ, fractionAlong a a v = .error .assertion := by
      intro a v
      unfold fractionAlong
      rw [sub_self, if_pos rfl]
      split <;> rfl
    unfold Line.segmentXyz
    rw [ends_of l h]
    simp only
    rw [← e0, ← e1, this, this, ite_self]

/-! ## Crossings -/

theorem meet_iff (l : Line) (a b q : ℝ × ℝ) (half : Bool) {i : Nat} (h : i < l.pieces) :
    l.meet a b half i = some q ↔ l.Across a b i ∧ Ahead a b half q ∧ l.OnPiece i q := by
  unfold Line.meet
  rw [next_of l h]
  exact C88_segments a b (pt (l.start i)) (pt (l.stop i)) q half

theorem firstOf_some (l : Line) (a b : ℝ × ℝ) (half : Bool) : ∀ (k n : Nat) (r : Nat × ℝ × ℝ),
    l.firstOf a b half (List.range' k n) = some r ↔ (k ≤ r.1 ∧ r.1 < k + n ∧ l.meet a b half r.1 = some r.2 ∧ ∀ i, k ≤ i → i < r.1 → l.meet a b half i = none)
  | k, 0, r => by
    simp only [List.range'_zero, Line.firstOf]
    constructor
    · intro h; exact absurd h (by simp)
    · rintro ⟨h1, h2, _⟩; omega
  | k, n + 1, r => by
    rw [List.range'_succ, Line.firstOf]
    cases hm : l.meet a b half k with
    | some q =>
      simp only
      constructor
      · intro h
        cases h
        exact ⟨le_refl _, by simp, hm, fun i h1 h2 => by simp only at h2; omega⟩
      · rintro ⟨h1, h2, h3, h4⟩
        have e : r.1 = k := by
          by_contra hc
          have := h4 k (le_refl _) (by omega)
          rw [hm] at this
          exact absurd this (by simp)
        rw [e, hm] at h3
        rw [Option.some.inj h3, ← e]
    | none =>
      simp only
      rw [firstOf_some l a b half (k + 1) n r]
      constructor
      · rintro ⟨h1, h2, h3, h4⟩
        refine ⟨by omega, by omega, h3, fun i i1 i2 => ?_⟩
        rcases Nat.eq_or_lt_of_le i1 with e | e
        · rw [← e, hm]
        · exact h4 i e i2
      · rintro ⟨h1, h2, h3, h4⟩
        have : k ≠ r.1 := by
          intro e
          rw [← e, hm] at h3
          exact absurd h3 (by simp)
        exact ⟨by omega, by omega, h3, fun i i1 i2 => h4 i (by omega) i2⟩

theorem firstOf_none (l : Line) (a b : ℝ × ℝ) (half : Bool) (is : List Nat) :
    l.firstOf a b half is = none ↔ ∀ i ∈ is, l.meet a b half i = none := by
  induction is with
  | nil => simp [Line.firstOf]
  | cons s ss ih =>
    rw [Line.firstOf]
    cases hm : l.meet a b half s with
    | some q => simp [hm]
    | none => simp [hm, ih]

theorem first_iff (l : Line) (a b : ℝ × ℝ) (half : Bool) (k : Nat) (x y : ℝ) :
    l.firstIntersection a b half = some (k, x, y) ↔ k < l.pieces ∧ l.meet a b half k = some (x, y) ∧ ∀ i < k, l.meet a b half i = none := by
  unfold Line.firstIntersection
  rw [List.range_eq_range', firstOf_some, segs_eq]
  constructor
  · rintro ⟨_, h2, h3, h4⟩
    exact ⟨by simpa using h2, h3, fun i hi => h4 i (Nat.zero_le _) hi⟩
  · rintro ⟨h1, h2, h3⟩
    exact ⟨Nat.zero_le _, by simpa using h1, h2, fun i _ hi => h3 i hi⟩

/-- C132: the first intersection with a line, or half line, is on the first piece which the line meets and to which it is not parallel; and it is
the point where they meet. -/
theorem C132_first (l : Line) (a b : ℝ × ℝ) (half : Bool) (k : Nat) (x y : ℝ) :
    l.firstIntersection a b half = some (k, x, y) ↔
      k < l.pieces ∧ l.Across a b k ∧ Ahead a b half (x, y) ∧ l.OnPiece k (x, y) ∧
      ∀ i < k, ¬ ∃ q, l.Across a b i ∧ Ahead a b half q ∧ l.OnPiece i q := by
  rw [first_iff]
  constructor
  · rintro ⟨h1, h2, h3⟩
    obtain ⟨g1, g2, g3⟩ := (meet_iff l a b (x, y) half h1).mp h2
    refine ⟨h1, g1, g2, g3, ?_⟩
    rintro i hi ⟨q, hq⟩
    have := (meet_iff l a b q half (by omega)).mpr hq
    rw [h3 i hi] at this
    exact absurd this (by simp)
  · rintro ⟨h1, h2, h3, h4, h5⟩
    refine ⟨h1, (meet_iff l a b (x, y) half h1).mpr ⟨h2, h3, h4⟩, fun i hi => ?_⟩
    cases hm : l.meet a b half i with
    | none => rfl
    | some q => exact absurd ⟨q, (meet_iff l a b q half (by omega)).mp hm⟩ (h5 i hi)

/-- C132: no intersection is found just if there is none with a piece which is not parallel. -/
theorem C132_none (l : Line) (a b : ℝ × ℝ) (half : Bool) : l.firstIntersection a b half = none ↔
    ¬ ∃ i < l.pieces, ∃ q, l.Across a b i ∧ Ahead a b half q ∧ l.OnPiece i q := by
  unfold Line.firstIntersection
  rw [firstOf_none, segs_eq]
  constructor
  · rintro h ⟨i, hi, q, hq⟩
    have := (meet_iff l a b q half hi).mpr hq
    rw [h i (List.mem_range.mpr hi)] at this
    exact absurd this (by simp)
  · intro h i hi
    cases hm : l.meet a b half i with
    | none => rfl
    | some q => exact absurd ⟨i, List.mem_range.mp hi, q, (meet_iff l a b q half (List.mem_range.mp hi)).mp hm⟩ h

theorem isClose_refl (a : ℝ) : isClose a a := by
  unfold isClose
  rw [sub_self, abs_zero]
  positivity

theorem fold_crossings (os : List (Option (ℝ × ℝ))) : ∀ cs : List (ℝ × ℝ),
    (∀ q ∈ os.foldl addCrossing cs, q ∈ cs ∨ some q ∈ os) ∧ (∀ q ∈ cs, q ∈ os.foldl addCrossing cs) ∧
    ∀ q, some q ∈ os → ∃ r ∈ os.foldl addCrossing cs, isClose q.1 r.1 ∧ isClose q.2 r.2 := by
  induction os with
  | nil =>
    intro cs
    exact ⟨fun q hq => Or.inl hq, fun q hq => hq, fun q hq => absurd hq (by simp)⟩
  | cons o os ih =>
    intro cs
    obtain ⟨h1, h2, h3⟩ := ih (addCrossing cs o)
    have k1 : ∀ q ∈ addCrossing cs o, q ∈ cs ∨ some q = o := by
      intro q hq
      unfold addCrossing at hq
      cases o with
      | none => exact Or.inl hq
      | some p =>
        simp only at hq
        cases hl : cs.getLast? with
        | none =>
          rw [hl] at hq
          rcases List.mem_append.mp hq with g | g
          · exact Or.inl g
          · exact Or.inr (by rw [List.mem_singleton.mp g])
        | some r =>
          rw [hl] at hq
          simp only at hq
          by_cases hc : isClose p.1 r.1 ∧ isClose p.2 r.2
          · rw [if_pos hc] at hq
            exact Or.inl hq
          · rw [if_neg hc] at hq
            rcases List.mem_append.mp hq with g | g
            · exact Or.inl g
            · exact Or.inr (by rw [List.mem_singleton.mp g])
    have k2 : ∀ q ∈ cs, q ∈ addCrossing cs o := by
      intro q hq
      unfold addCrossing
      cases o with
      | none => exact hq
      | some p =>
        simp only
        cases hl : cs.getLast? with
        | none => exact List.mem_append.mpr (Or.inl hq)
        | some r =>
          simp only
          by_cases hc : isClose p.1 r.1 ∧ isClose p.2 r.2
          · rw [if_pos hc]
            exact hq
          · rw [if_neg hc]
            exact List.mem_append.mpr (Or.inl hq)
    have k3 : ∀ q, some q = o → ∃ r ∈ addCrossing cs o, isClose q.1 r.1 ∧ isClose q.2 r.2 := by
      rintro q rfl
      unfold addCrossing
      simp only
      cases hl : cs.getLast? with
      | none => exact ⟨q, List.mem_append.mpr (Or.inr (List.mem_singleton.mpr rfl)), isClose_refl _, isClose_refl _⟩
      | some r =>
        simp only
        by_cases hc : isClose q.1 r.1 ∧ isClose q.2 r.2
        · rw [if_pos hc]
          exact ⟨r, List.mem_of_getLast? hl, hc⟩
        · rw [if_neg hc]
          exact ⟨q, List.mem_append.mpr (Or.inr (List.mem_singleton.mpr rfl)), isClose_refl _, isClose_refl _⟩
    rw [List.foldl_cons]
    refine ⟨?_, fun q hq => h2 q (k2 q hq), ?_⟩
    · intro q hq
      rcases h1 q hq with g | g
      · rcases k1 q g with e | e
        · exact Or.inl e
        · exact Or.inr (by rw [e]; exact List.mem_cons_self)
      · exact Or.inr (List.mem_cons_of_mem _ g)
    · intro q hq
      rcases List.mem_cons.mp hq with e | e
      · obtain ⟨r, hr, hc⟩ := k3 q e
        exact ⟨r, h2 r hr, hc⟩
      · exact h3 q e

/-- C132: every crossing which is listed is on both polylines, and each place where two pieces which are not parallel meet is listed, or one which is
close to it. -/
theorem C132_crossings (l other : Line) :
    (∀ q ∈ l.crossings other, ∃ i < l.pieces, ∃ j < other.pieces, l.OnPiece i q ∧ other.OnPiece j q) ∧
    ∀ i < l.pieces, ∀ j < other.pieces, ∀ q, l.OnPiece i q → other.OnPiece j q → other.Across (pt (l.start i)) (pt (l.stop i)) j →
      ∃ r ∈ l.crossings other, isClose q.1 r.1 ∧ isClose q.2 r.2 := by
  have hmem : ∀ q, some q ∈ ((List.range l.segs).flatMap fun i => (List.range other.segs).map fun j =>
      other.meet (pt (l.c i)) (pt (l.c (l.next i))) false j) ↔
      ∃ i < l.pieces, ∃ j < other.pieces, other.Across (pt (l.start i)) (pt (l.stop i)) j ∧ l.OnPiece i q ∧ other.OnPiece j q := by
    intro q
    rw [List.mem_flatMap]
    constructor
    · rintro ⟨i, hi, hq⟩
      obtain ⟨j, hj, hm⟩ := List.mem_map.mp hq
      have hi' : i < l.pieces := List.mem_range.mp hi
      have hj' : j < other.pieces := List.mem_range.mp hj
      rw [next_of l hi'] at hm
      obtain ⟨g1, g2, g3⟩ := (meet_iff other _ _ q false hj').mp hm
      obtain ⟨t, t0, t1, ht⟩ := g2
      exact ⟨i, hi', j, hj', g1, ⟨t, t0, t1 rfl, ht⟩, g3⟩
    · rintro ⟨i, hi, j, hj, g1, ⟨t, t0, t1, ht⟩, g3⟩
      refine ⟨i, List.mem_range.mpr hi, List.mem_map.mpr ⟨j, List.mem_range.mpr hj, ?_⟩⟩
      rw [next_of l hi]
      exact (meet_iff other _ _ q false hj).mpr ⟨g1, ⟨t, t0, fun _ => t1, ht⟩, g3⟩
  obtain ⟨h1, _, h3⟩ := fold_crossings ((List.range l.segs).flatMap fun i => (List.range other.segs).map fun j =>
      other.meet (pt (l.c i)) (pt (l.c (l.next i))) false j) []
  constructor
  · intro q hq
    rcases h1 q hq with g | g
    · exact absurd g (by simp)
    · obtain ⟨i, hi, j, hj, _, g2, g3⟩ := (hmem q).mp g
      exact ⟨i, hi, j, hj, g2, g3⟩
  · intro i hi j hj q g1 g2 g3
    exact h3 q ((hmem q).mpr ⟨i, hi, j, hj, g3, g1, g2⟩)

/-- a triangle with a corner at the origin -/
def corners (i : Nat) : V3 := if i = 0 then ![0, 0, 0] else if i = 1 then ![2, 1, 0] else ![2, -1, 0]

/-- a straight line -/
def across : Line := { n := 2, c := fun i => if i = 0 then ![-1, 0, 0] else ![3, 0, 0], closed := false }

/-- C132, negation: a crossing may be listed twice: here a closed polyline, a triangle, is crossed by a straight line at its first node, which belongs
to its first and last pieces, and on the piece between them. -/
theorem C132_crossings_violated : ∃ (l other : Line), l.crossings other = [(0, 0), (2, 0), (0, 0)] := by
  refine ⟨{ n := 3, c := corners, closed := true }, across, ?_⟩
  have e : ∀ i, i = 0 ∨ i = 1 ∨ i = 2 → across.meet (pt (corners i)) (pt (corners ((i + 1) % 3))) false 0 =
      some (if i = 1 then (2, 0) else (0, 0)) := by
    rintro i (rfl | rfl | rfl) <;> norm_num [Line.meet, lineLine, pt, Line.next, corners, across]
  have e0 := e 0 (by simp)
  have e1 := e 1 (by simp)
  have e2 := e 2 (by simp)
  have n1 : ¬ isClose (2 : ℝ) 0 := by
    unfold isClose
    norm_num
  have n2 : ¬ isClose (0 : ℝ) 2 := by
    unfold isClose
    norm_num
  have ha : across.segs = 1 := rfl
  unfold Line.crossings
  rw [ha]
  unfold Line.segs Line.next
  simp only [if_true, show List.range 3 = [0, 1, 2] from rfl, show List.range 1 = [0] from rfl,
    List.flatMap_cons, List.flatMap_nil, List.map_cons, List.map_nil, List.cons_append, List.nil_append]
  rw [e0, e1, e2]
  simp [addCrossing, n1, n2]

/-! ## Cases -/

example : 2 ≤ square.n ∧ (3 : Nat) < square.pieces ∧ ¬ (square.start 3 0 = square.stop 3 0 ∧ square.start 3 1 = square.stop 3 1) := by
  refine ⟨by decide, by decide, ?_⟩
  norm_num [square, Line.start, Line.stop]

/-- the half line from the middle of the square eastwards meets its third side -/
example : square.firstIntersection (1, 1) (1.5, 1) true = some (2, 2, 1) := by
  unfold Line.firstIntersection Line.segs
  simp only [square, if_true, show List.range 4 = [0, 1, 2, 3] from rfl]
  norm_num [Line.firstOf, Line.meet, lineLine, Line.next]

end Verif.Polyline
