import Verif.Delaunay.Geo

/-! # Turns of the edges of triangles around a point -/

namespace Verif.Delaunay
open Verif.Polygon (Pt orient)

variable {K : Type} [Field K] [LinearOrder K]

/-- how far a point is to the left of the ray from `q` in the direction `r` -/
def leftOf (q r x : Pt K) : K := r.x * (x.y - q.y) - r.y * (x.x - q.x)

/-- crossings of a directed edge with the ray from `q` in the direction `r`: one from right to left, minus one from left to right -/
def turn (q r a b : Pt K) : Int :=
  (if leftOf q r a ≤ 0 ∧ 0 < leftOf q r b ∧ 0 < orient a b q then 1 else 0) -
    (if leftOf q r b ≤ 0 ∧ 0 < leftOf q r a ∧ orient a b q < 0 then 1 else 0)

def turn3 (q r a b c : Pt K) : Int := turn q r a b + turn q r b c + turn q r c a

theorem leftOf_sum (q r a b c : Pt K) : orient a b q * leftOf q r c + orient b c q * leftOf q r a + orient c a q * leftOf q r b = 0 := by
  unfold orient leftOf
  ring

theorem turn3_cyc (q r a b c : Pt K) : turn3 q r b c a = turn3 q r a b c := by unfold turn3; ring

section
variable [IsStrictOrderedRing K]

theorem turn_swap (q r a b : Pt K) : turn q r b a = -turn q r a b := by
  unfold turn
  rw [orient_swap a b]
  simp only [Left.neg_pos_iff, Left.neg_neg_iff]
  ring

theorem turn_nonneg {q r a b : Pt K} (h : 0 ≤ orient a b q) : 0 ≤ turn q r a b := by
  unfold turn
  rw [if_neg (fun hn : leftOf q r b ≤ 0 ∧ 0 < leftOf q r a ∧ orient a b q < 0 => absurd hn.2.2 (not_lt.mpr h))]
  split <;> simp

theorem turn_pos {q r a b : Pt K} (ha : leftOf q r a ≤ 0) (hb : 0 < leftOf q r b) (h : 0 < orient a b q) : 0 < turn q r a b := by
  unfold turn
  rw [if_pos ⟨ha, hb, h⟩, if_neg (fun hn : leftOf q r b ≤ 0 ∧ 0 < leftOf q r a ∧ orient a b q < 0 => absurd hn.2.2 (not_lt.mpr h.le))]
  simp

theorem turn_same {q r a b : Pt K} (h : leftOf q r a ≤ 0 ↔ leftOf q r b ≤ 0) : turn q r a b = 0 := by
  unfold turn
  rw [if_neg, if_neg]
  · rfl
  · rintro ⟨h1, h2, -⟩
    exact absurd (h.mpr h1) (not_le.mpr h2)
  · rintro ⟨h1, h2, -⟩
    exact absurd (h.mp h1) (not_le.mpr h2)

theorem turn_up {q r a b : Pt K} (ha : leftOf q r a ≤ 0) (hb : 0 < leftOf q r b) : turn q r a b = if 0 < orient a b q then 1 else 0 := by
  unfold turn
  rw [if_neg (fun hn : leftOf q r b ≤ 0 ∧ 0 < leftOf q r a ∧ orient a b q < 0 => absurd hn.1 (not_le.mpr hb)), sub_zero]
  simp only [ha, hb, true_and]

theorem turn_down {q r a b : Pt K} (ha : 0 < leftOf q r a) (hb : leftOf q r b ≤ 0) : turn q r a b = if orient a b q < 0 then -1 else 0 := by
  rw [← neg_neg (turn q r a b), ← turn_swap, turn_up hb ha, orient_swap a b]
  simp only [Left.neg_pos_iff]
  split <;> rfl

/-- what the turns of a triangle say -/
structure Turns (q r a b c : Pt K) : Prop where
  nonneg : 0 ≤ turn3 q r a b c
  le_one : turn3 q r a b c ≤ 1
  closed : turn3 q r a b c ≠ 0 → 0 ≤ orient a b q ∧ 0 ≤ orient b c q ∧ 0 ≤ orient c a q
  inside : 0 < orient a b q → 0 < orient b c q → 0 < orient c a q → (r.x ≠ 0 ∨ r.y ≠ 0) → turn3 q r a b c = 1

theorem Turns.cyc {q r a b c : Pt K} (h : Turns q r a b c) : Turns q r b c a where
  nonneg := by rw [turn3_cyc]; exact h.nonneg
  le_one := by rw [turn3_cyc]; exact h.le_one
  closed := by
    rw [turn3_cyc]
    intro hn
    obtain ⟨h1, h2, h3⟩ := h.closed hn
    exact ⟨h2, h3, h1⟩
  inside := by
    rw [turn3_cyc]
    intro h1 h2 h3
    exact h.inside h3 h1 h2

/-- one corner to the left of the ray -/
theorem turns_one {q r a b c : Pt K} (h : 0 ≤ orient a b c) (ha : leftOf q r a ≤ 0) (hb : leftOf q r b ≤ 0) (hc : 0 < leftOf q r c) :
    Turns q r a b c := by
  have e : turn3 q r a b c = (if 0 < orient b c q then 1 else 0) + (if orient c a q < 0 then -1 else 0) := by
    unfold turn3
    rw [turn_same ⟨fun _ => hb, fun _ => ha⟩, turn_up hb hc, turn_down hc ha, zero_add]
  have hs := orient_sum a b c q
  have hl := leftOf_sum q r a b c
  have key : orient c a q < 0 → 0 < orient b c q := by
    intro h1
    by_contra h2
    push Not at h2
    have h3 := mul_nonneg_of_nonpos_of_nonpos h2 ha
    have h4 := mul_nonneg_of_nonpos_of_nonpos h1.le hb
    have h5 : orient a b q ≤ 0 := by
      by_contra h6
      push Not at h6
      have := mul_pos h6 hc
      linarith
    linarith
  constructor
  · rw [e]
    by_cases h1 : orient c a q < 0
    · rw [if_pos h1, if_pos (key h1)]
      simp
    · rw [if_neg h1]
      split <;> simp
  · rw [e]
    split <;> split <;> simp
  · intro hn
    rw [e] at hn
    by_cases h1 : orient c a q < 0
    · rw [if_pos h1, if_pos (key h1)] at hn
      simp at hn
    · rw [if_neg h1] at hn
      have h2 : 0 < orient b c q := by
        by_contra h3
        rw [if_neg h3] at hn
        simp at hn
      push Not at h1
      refine ⟨?_, h2.le, h1⟩
      by_contra h3
      push Not at h3
      have h4 := mul_nonneg_of_nonpos_of_nonpos (neg_nonpos.mpr h2.le) ha
      have h5 := mul_nonneg_of_nonpos_of_nonpos (neg_nonpos.mpr h1) hb
      have h6 := mul_pos (neg_pos.mpr h3) hc
      linarith
  · intro h1 h2 h3 _
    rw [e, if_pos h2, if_neg (not_lt.mpr h3.le)]
    rfl

/-- two corners to the left of the ray -/
theorem turns_two {q r a b c : Pt K} (h : 0 ≤ orient a b c) (ha : 0 < leftOf q r a) (hb : 0 < leftOf q r b) (hc : leftOf q r c ≤ 0) :
    Turns q r a b c := by
  have e : turn3 q r a b c = (if orient b c q < 0 then -1 else 0) + (if 0 < orient c a q then 1 else 0) := by
    unfold turn3
    rw [turn_same ⟨fun hn => absurd hn (not_le.mpr ha), fun hn => absurd hn (not_le.mpr hb)⟩, turn_down hb hc, turn_up hc ha, zero_add]
  have hs := orient_sum a b c q
  have hl := leftOf_sum q r a b c
  have key : orient b c q < 0 → 0 < orient c a q := by
    intro h1
    by_contra h2
    push Not at h2
    have h3 := mul_pos (neg_pos.mpr h1) ha
    have h4 := mul_nonneg (neg_nonneg.mpr h2) hb.le
    by_cases h5 : orient a b q ≤ 0
    · linarith
    · push Not at h5
      have := mul_nonneg h5.le (neg_nonneg.mpr hc)
      linarith
  constructor
  · rw [e]
    by_cases h1 : orient b c q < 0
    · rw [if_pos h1, if_pos (key h1)]
      simp
    · rw [if_neg h1]
      split <;> simp
  · rw [e]
    split <;> split <;> simp
  · intro hn
    rw [e] at hn
    by_cases h1 : orient b c q < 0
    · rw [if_pos h1, if_pos (key h1)] at hn
      simp at hn
    · rw [if_neg h1] at hn
      have h2 : 0 < orient c a q := by
        by_contra h3
        rw [if_neg h3] at hn
        simp at hn
      push Not at h1
      refine ⟨?_, h1, h2.le⟩
      by_contra h3
      push Not at h3
      have h4 := mul_nonneg h1 ha.le
      have h5 := mul_pos h2 hb
      have h6 := mul_nonneg_of_nonpos_of_nonpos h3.le hc
      linarith
  · intro h1 h2 h3 _
    rw [e, if_neg (not_lt.mpr h2.le), if_pos h3]
    rfl

theorem turns_none {q r a b c : Pt K} (e : turn3 q r a b c = 0)
    (hs : (leftOf q r a ≤ 0 ∧ leftOf q r b ≤ 0 ∧ leftOf q r c ≤ 0) ∨ (0 < leftOf q r a ∧ 0 < leftOf q r b ∧ 0 < leftOf q r c)) :
    Turns q r a b c := by
  constructor
  · rw [e]
  · rw [e]; simp
  · intro hn
    exact absurd e hn
  · intro h1 h2 h3 hr
    exfalso
    have hl := leftOf_sum q r a b c
    rcases hs with ⟨ha, hb, hc⟩ | ⟨ha, hb, hc⟩
    · have k1 := mul_nonneg h1.le (neg_nonneg.mpr hc)
      have k2 := mul_nonneg h2.le (neg_nonneg.mpr ha)
      have k3 := mul_nonneg h3.le (neg_nonneg.mpr hb)
      have z1 : leftOf q r c = 0 := by
        have : orient a b q * leftOf q r c = 0 := by linarith
        exact (mul_eq_zero.mp this).resolve_left h1.ne'
      have z2 : leftOf q r a = 0 := by
        have : orient b c q * leftOf q r a = 0 := by linarith
        exact (mul_eq_zero.mp this).resolve_left h2.ne'
      have e1 : r.x * orient c a q = 0 := by
        have : r.x * orient c a q = (c.x - q.x) * leftOf q r a - (a.x - q.x) * leftOf q r c := by unfold orient leftOf; ring
        rw [this, z1, z2]
        ring
      have e2 : r.y * orient c a q = 0 := by
        have : r.y * orient c a q = (c.y - q.y) * leftOf q r a - (a.y - q.y) * leftOf q r c := by unfold orient leftOf; ring
        rw [this, z1, z2]
        ring
      rcases hr with hr | hr
      · exact hr ((mul_eq_zero.mp e1).resolve_right h3.ne')
      · exact hr ((mul_eq_zero.mp e2).resolve_right h3.ne')
    · have k1 := mul_pos h1 hc
      have k2 := mul_pos h2 ha
      have k3 := mul_pos h3 hb
      linarith

theorem turns {a b c : Pt K} (h : 0 ≤ orient a b c) (q r : Pt K) : Turns q r a b c := by
  have h' : 0 ≤ orient b c a := by rw [orient_cyc]; exact h
  have h'' : 0 ≤ orient c a b := by rw [orient_cyc]; exact h'
  rcases le_or_gt (leftOf q r a) 0 with ha | ha <;> rcases le_or_gt (leftOf q r b) 0 with hb | hb <;>
    rcases le_or_gt (leftOf q r c) 0 with hc | hc
  · refine turns_none ?_ (Or.inl ⟨ha, hb, hc⟩)
    unfold turn3
    rw [turn_same ⟨fun _ => hb, fun _ => ha⟩, turn_same ⟨fun _ => hc, fun _ => hb⟩, turn_same ⟨fun _ => ha, fun _ => hc⟩]
    rfl
  · exact turns_one h ha hb hc
  · exact (turns_one h'' hc ha hb).cyc
  · exact (turns_two h' hb hc ha).cyc.cyc
  · exact (turns_one h' hb hc ha).cyc.cyc
  · exact (turns_two h'' hc ha hb).cyc
  · exact turns_two h ha hb hc
  · refine turns_none ?_ (Or.inr ⟨ha, hb, hc⟩)
    unfold turn3
    rw [turn_same ⟨fun hn => absurd hn (not_le.mpr ha), fun hn => absurd hn (not_le.mpr hb)⟩,
      turn_same ⟨fun hn => absurd hn (not_le.mpr hb), fun hn => absurd hn (not_le.mpr hc)⟩,
      turn_same ⟨fun hn => absurd hn (not_le.mpr hc), fun hn => absurd hn (not_le.mpr ha)⟩]
    rfl

end

end Verif.Delaunay
