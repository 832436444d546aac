import Verif.Geom.Scan
import Verif.Geom.Spec
import Mathlib.Algebra.Order.Floor.Semiring
import Mathlib.Data.Rat.Floor
import Mathlib.Algebra.Order.Ring.Rat
import Mathlib.Tactic.Ring
import Mathlib.Tactic.Linarith
import Mathlib.Tactic.LinearCombination
import Mathlib.Tactic.FieldSimp

/-! # C89: points of a regular mesh in triangles -/

namespace Verif.Geom
variable {K : Type} [Field K] [LinearOrder K] [IsStrictOrderedRing K]

/-- in a triangle of the plane, or on its boundary: a weighted mean of the corners -/
def InTri2 (t : Tri2 K) (p : K × K) : Prop :=
  ∃ f g h : K, 0 ≤ f ∧ 0 ≤ g ∧ 0 ≤ h ∧ f + g + h = 1 ∧ p.1 = f * t.a.1 + g * t.b.1 + h * t.c.1 ∧ p.2 = f * t.a.2 + g * t.b.2 + h * t.c.2

/-- the corners are all at the same x: the triangle is no more than a line -/
def Upright (t : Tri2 K) : Prop := t.a.1 = t.b.1 ∧ t.b.1 = t.c.1

/-! ## Edges -/

theorem interceptYZ_some {x x0 x1 y0 y1 z0 z1 y z : K} (h : interceptNanYZ x x0 x1 y0 y1 z0 z1 = some (y, z)) :
    ∃ s, 0 ≤ s ∧ s ≤ 1 ∧ x = x0 + s * (x1 - x0) ∧ y = y0 + s * (y1 - y0) ∧ z = z0 + s * (z1 - z0) := by
  unfold interceptNanYZ at h
  by_cases h1 : x1 < x0
  · rw [if_pos h1] at h
    dsimp only at h
    split at h
    · rename_i hx
      rw [if_neg (ne_of_lt h1)] at h
      have hp : 0 < x0 - x1 := sub_pos.mpr h1
      have hn : x0 - x1 ≠ 0 := ne_of_gt hp
      cases h
      refine ⟨(x0 - x) / (x0 - x1), div_nonneg (by linarith [hx.2]) (le_of_lt hp), (div_le_one hp).mpr (by linarith [hx.1]), ?_, ?_, ?_⟩ <;>
        (field_simp; ring)
    · cases h
  · rw [if_neg h1] at h
    dsimp only at h
    split at h
    · rename_i hx
      split at h
      · rename_i he
        cases h
        exact ⟨0, le_refl _, zero_le_one, by linarith [hx.1, hx.2], by ring, by ring⟩
      · rename_i he
        have hp : 0 < x1 - x0 := sub_pos.mpr (lt_of_le_of_ne (not_lt.mp h1) he)
        have hn : x1 - x0 ≠ 0 := ne_of_gt hp
        cases h
        refine ⟨(x - x0) / (x1 - x0), div_nonneg (by linarith [hx.1]) (le_of_lt hp), (div_le_one hp).mpr (by linarith [hx.2]), ?_, ?_, ?_⟩ <;>
          (field_simp; ring)
    · cases h

omit [IsStrictOrderedRing K] in
theorem interceptYZ_fst (x x0 x1 y0 y1 z0 z1 : K) : (interceptNanYZ x x0 x1 y0 y1 z0 z1).map Prod.fst = interceptNan x x0 x1 y0 y1 := by
  unfold interceptNanYZ interceptNan
  by_cases h1 : x1 < x0
  · rw [if_pos h1, if_pos h1]
    dsimp only
    split
    · split <;> rfl
    · rfl
  · rw [if_neg h1, if_neg h1]
    dsimp only
    split
    · split <;> rfl
    · rfl

theorem intercept_some {x x0 x1 y0 y1 y : K} (h : interceptNan x x0 x1 y0 y1 = some y) :
    ∃ s, 0 ≤ s ∧ s ≤ 1 ∧ x = x0 + s * (x1 - x0) ∧ y = y0 + s * (y1 - y0) := by
  rw [← interceptYZ_fst x x0 x1 y0 y1 0 0] at h
  obtain ⟨⟨y', z⟩, h1, h2⟩ := Option.map_eq_some_iff.mp h
  cases h2
  obtain ⟨s, a, b, c, d, -⟩ := interceptYZ_some h1
  exact ⟨s, a, b, c, d⟩

/-- an edge which is not upright is met where it is -/
theorem intercept_edge {x x0 x1 y0 y1 : K} (hne : x0 ≠ x1) {s : K} (h0 : 0 ≤ s) (h1 : s ≤ 1) (hx : x = x0 + s * (x1 - x0)) :
    interceptNan x x0 x1 y0 y1 = some (y0 + s * (y1 - y0)) := by
  unfold interceptNan
  rcases lt_or_gt_of_ne hne with h | h
  · rw [if_neg (not_lt.mpr (le_of_lt h))]
    have hp : 0 < x1 - x0 := sub_pos.mpr h
    have hn : x1 - x0 ≠ 0 := ne_of_gt hp
    dsimp only
    rw [if_pos ⟨by nlinarith, by nlinarith⟩, if_neg hne]
    congr 1
    rw [hx]
    field_simp
    ring
  · rw [if_pos h]
    have hp : 0 < x0 - x1 := sub_pos.mpr h
    have hn : x0 - x1 ≠ 0 := ne_of_gt hp
    dsimp only
    rw [if_pos ⟨by nlinarith, by nlinarith⟩, if_neg hne.symm]
    congr 1
    rw [hx]
    field_simp
    ring

/-- heights at which the line at `x` meets the edges -/
def edgeVals (t : Tri2 K) (x : K) : List (Option K) :=
  [interceptNan x t.b.1 t.c.1 t.b.2 t.c.2, interceptNan x t.a.1 t.b.1 t.a.2 t.b.2, interceptNan x t.a.1 t.c.1 t.a.2 t.c.2]

theorem edge_in {t : Tri2 K} {x y : K} (h : some y ∈ edgeVals t x) : InTri2 t (x, y) := by
  unfold edgeVals at h
  simp only [List.mem_cons, List.not_mem_nil, or_false] at h
  rcases h with h | h | h
  · obtain ⟨s, h0, h1, e1, e2⟩ := intercept_some h.symm
    exact ⟨0, 1 - s, s, le_refl _, by linarith, h0, by ring, by dsimp only; rw [e1]; ring, by dsimp only; rw [e2]; ring⟩
  · obtain ⟨s, h0, h1, e1, e2⟩ := intercept_some h.symm
    exact ⟨1 - s, s, 0, by linarith, h0, le_refl _, by ring, by dsimp only; rw [e1]; ring, by dsimp only; rw [e2]; ring⟩
  · obtain ⟨s, h0, h1, e1, e2⟩ := intercept_some h.symm
    exact ⟨1 - s, 0, s, by linarith, le_refl _, h0, by ring, by dsimp only; rw [e1]; ring, by dsimp only; rw [e2]; ring⟩

/-- the triangle has no holes -/
theorem between_in {t : Tri2 K} {x lo hi y : K} (h1 : InTri2 t (x, lo)) (h2 : InTri2 t (x, hi)) (hl : lo ≤ y) (hh : y ≤ hi) :
    InTri2 t (x, y) := by
  rcases eq_or_lt_of_le (le_trans hl hh) with e | hlt
  · have : y = lo := le_antisymm (by rw [e]; exact hh) hl
    rw [this]
    exact h1
  · obtain ⟨f, g, h, f0, g0, h0, s1, x1, y1⟩ := h1
    obtain ⟨f', g', h', f0', g0', h0', s1', x1', y1'⟩ := h2
    dsimp only at x1 y1 x1' y1'
    have hp : 0 < hi - lo := sub_pos.mpr hlt
    have hn : hi - lo ≠ 0 := ne_of_gt hp
    set r := (y - lo) / (hi - lo) with hr
    have r0 : 0 ≤ r := div_nonneg (by linarith) (le_of_lt hp)
    have r1 : 0 ≤ 1 - r := by
      have : r ≤ 1 := (div_le_one hp).mpr (by linarith)
      linarith
    have ry : y = (1 - r) * lo + r * hi := by
      rw [hr]; field_simp; ring
    refine ⟨(1 - r) * f + r * f', (1 - r) * g + r * g', (1 - r) * h + r * h', by positivity, by positivity, by positivity, ?_, ?_, ?_⟩
    · linear_combination (1 - r) * s1 + r * s1'
    · dsimp only; linear_combination (1 - r) * x1 + r * x1'
    · dsimp only; linear_combination ry + (1 - r) * y1 + r * y1'

/-- seen from a corner, the other two are on the same side, and the line at `x` passes between -/
def Apex (x : K) (a b c : K × K) : Prop :=
  (a.1 < b.1 ∧ a.1 < c.1 ∧ a.1 ≤ x ∧ x ≤ b.1 ∧ x ≤ c.1) ∨ (b.1 < a.1 ∧ c.1 < a.1 ∧ x ≤ a.1 ∧ b.1 ≤ x ∧ c.1 ≤ x)

omit [Field K] [IsStrictOrderedRing K] in
theorem exists_apex {a b c : K × K} {x : K} (hnu : ¬ (a.1 = b.1 ∧ b.1 = c.1)) (hlo : min (min a.1 b.1) c.1 ≤ x)
    (hhi : x ≤ max (max a.1 b.1) c.1) : Apex x a b c ∨ Apex x b a c ∨ Apex x c a b := by
  -- the corner furthest left, or that furthest right
  have key : ∀ p q r : K, p ≤ q → q ≤ r → p ≤ x → x ≤ r → ¬ (p = q ∧ q = r) → (p < q ∧ p < r ∧ p ≤ x ∧ x ≤ q ∧ x ≤ r) ∨ (p < r ∧ q < r ∧ x ≤ r ∧ p ≤ x ∧ q ≤ x) := by
    intro p q r h1 h2 h3 h4 h5
    rcases lt_or_ge x q with h | h
    · exact Or.inl ⟨lt_of_le_of_lt h3 h, lt_of_le_of_lt h3 (lt_of_lt_of_le h h2), h3, le_of_lt h, h4⟩
    · rcases eq_or_lt_of_le h2 with e | e
      · have e' : x = q := le_antisymm (by rw [e]; exact h4) h
        rcases eq_or_lt_of_le h1 with e1 | e1
        · exact absurd ⟨e1, e⟩ h5
        · exact Or.inl ⟨e1, lt_of_lt_of_le e1 h2, h3, le_of_eq e', h4⟩
      · exact Or.inr ⟨lt_of_le_of_lt h1 e, e, h4, h3, h⟩
  unfold Apex
  rcases le_total a.1 b.1 with h1 | h1 <;> rcases le_total b.1 c.1 with h2 | h2 <;> rcases le_total a.1 c.1 with h3 | h3 <;>
    simp only [h1, h2, h3, min_eq_left, min_eq_right, max_eq_left, max_eq_right] at hlo hhi
  · rcases key a.1 b.1 c.1 h1 h2 hlo hhi hnu with h | h
    · exact Or.inl (Or.inl h)
    · exact Or.inr (Or.inr (Or.inr h))
  · exact absurd ⟨le_antisymm h1 (le_trans h2 h3), le_antisymm h2 (le_trans h3 h1)⟩ hnu
  · rcases key a.1 c.1 b.1 h3 h2 hlo hhi (fun h => hnu ⟨h.1.trans h.2, h.2.symm⟩) with h | h
    · exact Or.inl (Or.inl ⟨h.2.1, h.1, h.2.2.1, h.2.2.2.2, h.2.2.2.1⟩)
    · exact Or.inr (Or.inl (Or.inr h))
  · rcases key c.1 a.1 b.1 h3 h1 hlo hhi (fun h => hnu ⟨h.2, h.2.symm.trans h.1.symm⟩) with h | h
    · exact Or.inr (Or.inr (Or.inl h))
    · exact Or.inr (Or.inl (Or.inr ⟨h.2.1, h.1, h.2.2.1, h.2.2.2.2, h.2.2.2.1⟩))
  · rcases key b.1 a.1 c.1 h1 h3 hlo hhi (fun h => hnu ⟨h.1.symm, h.1.trans h.2⟩) with h | h
    · exact Or.inr (Or.inl (Or.inl h))
    · exact Or.inr (Or.inr (Or.inr ⟨h.2.1, h.1, h.2.2.1, h.2.2.2.2, h.2.2.2.1⟩))
  · rcases key b.1 c.1 a.1 h2 h3 hlo hhi (fun h => hnu ⟨(h.1.trans h.2).symm, h.1⟩) with h | h
    · exact Or.inr (Or.inl (Or.inl ⟨h.2.1, h.1, h.2.2.1, h.2.2.2.2, h.2.2.2.1⟩))
    · exact Or.inl (Or.inr h)
  · exact absurd ⟨le_antisymm (le_trans h3 h2) h1, le_antisymm (le_trans h1 h3) h2⟩ hnu
  · rcases key c.1 b.1 a.1 h2 h1 hlo hhi (fun h => hnu ⟨h.2.symm, h.1.symm⟩) with h | h
    · exact Or.inr (Or.inr (Or.inl ⟨h.2.1, h.1, h.2.2.1, h.2.2.2.2, h.2.2.2.1⟩))
    · exact Or.inl (Or.inr ⟨h.2.1, h.1, h.2.2.1, h.2.2.2.2, h.2.2.2.1⟩)

/-- at `x` the two edges at such a corner are met, and all of the triangle there is between -/
theorem apex_span {x y f g h : K} {a b c : K × K} (ha : Apex x a b c) (h0 : 0 ≤ f) (h1 : 0 ≤ g) (h2 : 0 ≤ h) (hs : f + g + h = 1)
    (hx : x = f * a.1 + g * b.1 + h * c.1) (hy : y = f * a.2 + g * b.2 + h * c.2) :
    ∃ s u, 0 ≤ s ∧ s ≤ 1 ∧ 0 ≤ u ∧ u ≤ 1 ∧ x = a.1 + s * (b.1 - a.1) ∧ x = a.1 + u * (c.1 - a.1) ∧ a.1 ≠ b.1 ∧ a.1 ≠ c.1 ∧
      min (a.2 + s * (b.2 - a.2)) (a.2 + u * (c.2 - a.2)) ≤ y ∧ y ≤ max (a.2 + s * (b.2 - a.2)) (a.2 + u * (c.2 - a.2)) := by
  have main : ∀ B C X : K, B ≠ 0 → C ≠ 0 → X = g * B + h * C → (X = 0 → g = 0 ∧ h = 0) → (X ≠ 0 → 0 ≤ B / X ∧ 0 ≤ C / X) →
      ∀ P Q : K, min (X / B * P) (X / C * Q) ≤ g * P + h * Q ∧ g * P + h * Q ≤ max (X / B * P) (X / C * Q) := by
    intro B C X hB hC hX hz hnz P Q
    by_cases e : X = 0
    · obtain ⟨e1, e2⟩ := hz e
      rw [e, e1, e2]
      simp
    · obtain ⟨b0, c0⟩ := hnz e
      have w : g * (B / X) + h * (C / X) = 1 := by
        field_simp
        rw [hX]
      have eP : g * P = g * (B / X) * (X / B * P) := by field_simp
      have eQ : h * Q = h * (C / X) * (X / C * Q) := by field_simp
      have p0 : 0 ≤ g * (B / X) := mul_nonneg h1 b0
      have q0 : 0 ≤ h * (C / X) := mul_nonneg h2 c0
      rw [eP, eQ]
      generalize g * (B / X) = α at *
      generalize h * (C / X) = β at *
      generalize X / B * P = p at *
      generalize X / C * Q = q at *
      constructor
      · have l1 := mul_le_mul_of_nonneg_left (min_le_left p q) p0
        have l2 := mul_le_mul_of_nonneg_left (min_le_right p q) q0
        have e3 : α * min p q + β * min p q = min p q := by rw [← add_mul, w, one_mul]
        linarith
      · have l1 := mul_le_mul_of_nonneg_left (le_max_left p q) p0
        have l2 := mul_le_mul_of_nonneg_left (le_max_right p q) q0
        have e3 : α * max p q + β * max p q = max p q := by rw [← add_mul, w, one_mul]
        linarith
  have hX : x - a.1 = g * (b.1 - a.1) + h * (c.1 - a.1) := by rw [hx]; linear_combination (-a.1) * (1 - hs) * 0 + a.1 * hs
  have hY : y = a.2 + (g * (b.2 - a.2) + h * (c.2 - a.2)) := by rw [hy]; linear_combination a.2 * hs
  have hBC : b.1 - a.1 ≠ 0 ∧ c.1 - a.1 ≠ 0 ∧ (x - a.1 = 0 → g = 0 ∧ h = 0) ∧
      (x - a.1 ≠ 0 → 0 ≤ (b.1 - a.1) / (x - a.1) ∧ 0 ≤ (c.1 - a.1) / (x - a.1)) ∧
      0 ≤ (x - a.1) / (b.1 - a.1) ∧ (x - a.1) / (b.1 - a.1) ≤ 1 ∧ 0 ≤ (x - a.1) / (c.1 - a.1) ∧ (x - a.1) / (c.1 - a.1) ≤ 1 := by
    rcases ha with ⟨l1, l2, l3, l4, l5⟩ | ⟨l1, l2, l3, l4, l5⟩
    · have B : 0 < b.1 - a.1 := sub_pos.mpr l1
      have C : 0 < c.1 - a.1 := sub_pos.mpr l2
      have X : 0 ≤ x - a.1 := sub_nonneg.mpr l3
      refine ⟨ne_of_gt B, ne_of_gt C, ?_, ?_, div_nonneg X (le_of_lt B), (div_le_one B).mpr (by linarith), div_nonneg X (le_of_lt C),
        (div_le_one C).mpr (by linarith)⟩
      · intro e
        rw [e] at hX
        have g0 := mul_nonneg h1 (le_of_lt B)
        have h0' := mul_nonneg h2 (le_of_lt C)
        have e1 : g * (b.1 - a.1) = 0 := by linarith
        have e2 : h * (c.1 - a.1) = 0 := by linarith
        exact ⟨(mul_eq_zero.mp e1).resolve_right (ne_of_gt B), (mul_eq_zero.mp e2).resolve_right (ne_of_gt C)⟩
      · intro _
        exact ⟨div_nonneg (le_of_lt B) X, div_nonneg (le_of_lt C) X⟩
    · have B : b.1 - a.1 < 0 := sub_neg.mpr l1
      have C : c.1 - a.1 < 0 := sub_neg.mpr l2
      have X : x - a.1 ≤ 0 := sub_nonpos.mpr l3
      refine ⟨ne_of_lt B, ne_of_lt C, ?_, ?_, div_nonneg_of_nonpos X (le_of_lt B), (div_le_one_of_neg B).mpr (by linarith),
        div_nonneg_of_nonpos X (le_of_lt C), (div_le_one_of_neg C).mpr (by linarith)⟩
      · intro e
        rw [e] at hX
        have g0 := mul_nonneg h1 (neg_nonneg.mpr (le_of_lt B))
        have h0' := mul_nonneg h2 (neg_nonneg.mpr (le_of_lt C))
        have e1 : g * (b.1 - a.1) = 0 := by linarith
        have e2 : h * (c.1 - a.1) = 0 := by linarith
        exact ⟨(mul_eq_zero.mp e1).resolve_right (ne_of_lt B), (mul_eq_zero.mp e2).resolve_right (ne_of_lt C)⟩
      · intro _
        exact ⟨div_nonneg_of_nonpos (le_of_lt B) X, div_nonneg_of_nonpos (le_of_lt C) X⟩
  obtain ⟨hB, hC, hz, hnz, s0, s1, u0, u1⟩ := hBC
  obtain ⟨k1, k2⟩ := main _ _ _ hB hC hX hz hnz (b.2 - a.2) (c.2 - a.2)
  refine ⟨_, _, s0, s1, u0, u1, ?_, ?_, fun e => hB (by rw [e, sub_self]), fun e => hC (by rw [e, sub_self]), ?_, ?_⟩
  · rw [div_mul_cancel₀ _ hB]; ring
  · rw [div_mul_cancel₀ _ hC]; ring
  · rw [hY, min_add_add_left]; linarith
  · rw [hY, max_add_add_left]; linarith

/-- at each `x` the triangle is what is between the lowest and the highest of the edges -/
theorem span_iff {t : Tri2 K} (hnu : ¬ Upright t) (x y : K) :
    (∃ lo hi, some lo ∈ edgeVals t x ∧ some hi ∈ edgeVals t x ∧ lo ≤ y ∧ y ≤ hi) ↔ InTri2 t (x, y) := by
  constructor
  · rintro ⟨lo, hi, h1, h2, h3, h4⟩
    exact between_in (edge_in h1) (edge_in h2) h3 h4
  · rintro ⟨f, g, h, f0, g0, h0, hs, hx, hy⟩
    dsimp only at hx hy
    have hlo : min (min t.a.1 t.b.1) t.c.1 ≤ x := by
      have l1 : min (min t.a.1 t.b.1) t.c.1 ≤ t.a.1 := le_trans (min_le_left _ _) (min_le_left _ _)
      have l2 : min (min t.a.1 t.b.1) t.c.1 ≤ t.b.1 := le_trans (min_le_left _ _) (min_le_right _ _)
      have l3 : min (min t.a.1 t.b.1) t.c.1 ≤ t.c.1 := min_le_right _ _
      generalize min (min t.a.1 t.b.1) t.c.1 = m at *
      have e3 : f * m + g * m + h * m = m := by rw [← add_mul, ← add_mul, hs, one_mul]
      have k1 := mul_le_mul_of_nonneg_left l1 f0
      have k2 := mul_le_mul_of_nonneg_left l2 g0
      have k3 := mul_le_mul_of_nonneg_left l3 h0
      linarith
    have hhi : x ≤ max (max t.a.1 t.b.1) t.c.1 := by
      have l1 : t.a.1 ≤ max (max t.a.1 t.b.1) t.c.1 := le_trans (le_max_left _ _) (le_max_left _ _)
      have l2 : t.b.1 ≤ max (max t.a.1 t.b.1) t.c.1 := le_trans (le_max_right _ _) (le_max_left _ _)
      have l3 : t.c.1 ≤ max (max t.a.1 t.b.1) t.c.1 := le_max_right _ _
      generalize max (max t.a.1 t.b.1) t.c.1 = m at *
      have e3 : f * m + g * m + h * m = m := by rw [← add_mul, ← add_mul, hs, one_mul]
      have k1 := mul_le_mul_of_nonneg_left l1 f0
      have k2 := mul_le_mul_of_nonneg_left l2 g0
      have k3 := mul_le_mul_of_nonneg_left l3 h0
      linarith
    have pick : ∀ p q : K, some p ∈ edgeVals t x → some q ∈ edgeVals t x → min p q ≤ y → y ≤ max p q →
        ∃ lo hi, some lo ∈ edgeVals t x ∧ some hi ∈ edgeVals t x ∧ lo ≤ y ∧ y ≤ hi := by
      intro p q hp hq h1 h2
      rcases le_total p q with e | e
      · rw [min_eq_left e] at h1; rw [max_eq_right e] at h2; exact ⟨p, q, hp, hq, h1, h2⟩
      · rw [min_eq_right e] at h1; rw [max_eq_left e] at h2; exact ⟨q, p, hq, hp, h1, h2⟩
    have flip : ∀ (p q : K × K) (s : K), 0 ≤ s → s ≤ 1 → x = p.1 + s * (q.1 - p.1) → p.1 ≠ q.1 →
        interceptNan x q.1 p.1 q.2 p.2 = some (p.2 + s * (q.2 - p.2)) := by
      intro p q s s0 s1 e hne
      rw [intercept_edge hne.symm (s := 1 - s) (by linarith) (by linarith) (by rw [e]; ring)]
      congr 1
      ring
    rcases exists_apex (x := x) hnu hlo hhi with ha | ha | ha
    · obtain ⟨s, u, s0, s1, u0, u1, e1, e2, n1, n2, k1, k2⟩ := apex_span ha f0 g0 h0 hs hx hy
      refine pick _ _ ?_ ?_ k1 k2
      · unfold edgeVals
        rw [intercept_edge n1 s0 s1 e1]
        simp
      · unfold edgeVals
        rw [intercept_edge n2 u0 u1 e2]
        simp
    · obtain ⟨s, u, s0, s1, u0, u1, e1, e2, n1, n2, k1, k2⟩ := apex_span (y := y) (f := g) (g := f) (h := h) ha g0 f0 h0 (by rw [← hs]; ring)
        (by rw [hx]; ring) (by rw [hy]; ring)
      refine pick _ _ ?_ ?_ k1 k2
      · unfold edgeVals
        rw [flip t.b t.a s s0 s1 e1 n1]
        simp
      · unfold edgeVals
        rw [intercept_edge n2 u0 u1 e2]
        simp
    · obtain ⟨s, u, s0, s1, u0, u1, e1, e2, n1, n2, k1, k2⟩ := apex_span (y := y) (f := h) (g := f) (h := g) ha h0 f0 g0 (by rw [← hs]; ring)
        (by rw [hx]; ring) (by rw [hy]; ring)
      refine pick _ _ ?_ ?_ k1 k2
      · unfold edgeVals
        rw [flip t.c t.a s s0 s1 e1 n1]
        simp
      · unfold edgeVals
        rw [flip t.c t.b u u0 u1 e2 n2]
        simp

end Verif.Geom
