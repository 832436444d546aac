import Verif.Polyline.PropsConvex
import Mathlib.Analysis.SpecialFunctions.Trigonometric.Basic

/-! # C134: regular polygons -/

namespace Verif.Polyline
open Verif.Py
open Verif.Wells.Survey (V3)
open Finset

/-! ## Specification -/

/-- a polygon is regular about a centre: its nodes are on a circle about it, at its depth, and all its sides are of the same length -/
structure Line.Regular (l : Line) (centre : V3) (radius side : ℝ) : Prop where
  closed : l.closed = true
  onCircle : ∀ i < l.n, dist true centre (l.c i) = radius ∧ l.c i 2 = centre 2
  sides : ∀ i < l.n, l.len false i = side

/-! ## Lemmas -/

/-- a point on a circle, by azimuth -/
noncomputable def onCircle (r : ℝ) (o : V3) (θ : ℝ) : V3 := ![r * Real.sin θ, r * Real.cos θ, 0] + o

/-- the azimuth of a node -/
noncomputable def azimuth (n i : Nat) : ℝ := i * 2 * Real.pi / n

theorem onCircle_turn (r : ℝ) (o : V3) {n : Nat} (hn : 3 ≤ n) : onCircle r o (azimuth n n) = onCircle r o (azimuth n 0) := by
  have h0 : (n : ℝ) ≠ 0 := by
    have : n ≠ 0 := by omega
    exact_mod_cast this
  have e : azimuth n n = 2 * Real.pi := by
    unfold azimuth
    field_simp
  have e0 : azimuth n 0 = 0 := by
    unfold azimuth
    simp
  rw [e, e0]
  unfold onCircle
  rw [Real.sin_two_pi, Real.cos_two_pi, Real.sin_zero, Real.cos_zero]

/-- which side of a chord a point of the circle is on -/
theorem left_onCircle (r : ℝ) (o : V3) (α β γ : ℝ) :
    left (onCircle r o α) (onCircle r o β) (onCircle r o γ) =
      -(4 * r ^ 2 * (Real.sin ((β - α) / 2) * (Real.sin ((γ - α) / 2) * Real.sin ((γ - β) / 2)))) := by
  have c : ∀ θ, onCircle r o θ 0 = r * Real.sin θ + o 0 ∧ onCircle r o θ 1 = r * Real.cos θ + o 1 := by
    intro θ
    unfold onCircle
    exact ⟨rfl, rfl⟩
  unfold left
  rw [(c α).1, (c α).2, (c β).1, (c β).2, (c γ).1, (c γ).2]
  obtain ⟨a, rfl⟩ : ∃ a, α = 2 * a := ⟨α / 2, by ring⟩
  obtain ⟨b, rfl⟩ : ∃ b, β = 2 * b := ⟨β / 2, by ring⟩
  obtain ⟨g, rfl⟩ : ∃ g, γ = 2 * g := ⟨γ / 2, by ring⟩
  rw [show (2 * b - 2 * a) / 2 = b - a by ring, show (2 * g - 2 * a) / 2 = g - a by ring, show (2 * g - 2 * b) / 2 = g - b by ring]
  rw [Real.sin_sub, Real.sin_sub, Real.sin_sub, Real.sin_two_mul, Real.sin_two_mul, Real.sin_two_mul, Real.cos_two_mul, Real.cos_two_mul, Real.cos_two_mul]
  have ha := Real.sin_sq_add_cos_sq a
  have hb := Real.sin_sq_add_cos_sq b
  have hg := Real.sin_sq_add_cos_sq g
  set sa := Real.sin a
  set ca := Real.cos a
  set sb := Real.sin b
  set cb := Real.cos b
  set sg := Real.sin g
  set cg := Real.cos g
  have ea : sa ^ 2 = 1 - ca ^ 2 := by linarith
  have eb : sb ^ 2 = 1 - cb ^ 2 := by linarith
  have eg : sg ^ 2 = 1 - cg ^ 2 := by linarith
  have e : sa ^ 3 = sa * (1 - ca ^ 2) := by rw [← ea]; ring
  ring_nf
  rw [ea, eb, eg]
  ring

theorem left_centre (r : ℝ) (o : V3) (α β : ℝ) : left (onCircle r o α) (onCircle r o β) o = -(r ^ 2 * Real.sin (β - α)) := by
  have c : ∀ θ, onCircle r o θ 0 = r * Real.sin θ + o 0 ∧ onCircle r o θ 1 = r * Real.cos θ + o 1 := by
    intro θ
    unfold onCircle
    exact ⟨rfl, rfl⟩
  unfold left
  rw [(c α).1, (c α).2, (c β).1, (c β).2, Real.sin_sub]
  ring

/-- the distance along a chord -/
theorem chord (r : ℝ) (o : V3) (α β : ℝ) : dist false (onCircle r o α) (onCircle r o β) = 2 * |r * Real.sin ((β - α) / 2)| := by
  have c : ∀ θ, onCircle r o θ 0 = r * Real.sin θ + o 0 ∧ onCircle r o θ 1 = r * Real.cos θ + o 1 ∧ onCircle r o θ 2 = 0 + o 2 := by
    intro θ
    unfold onCircle
    exact ⟨rfl, rfl, rfl⟩
  unfold dist
  simp only [Bool.false_eq_true, if_false]
  rw [(c α).1, (c α).2.1, (c α).2.2, (c β).1, (c β).2.1, (c β).2.2]
  have key : (r * Real.sin β + o 0 - (r * Real.sin α + o 0)) ^ 2 + (r * Real.cos β + o 1 - (r * Real.cos α + o 1)) ^ 2 + (0 + o 2 - (0 + o 2)) ^ 2 =
      (2 * |r * Real.sin ((β - α) / 2)|) ^ 2 := by
    rw [mul_pow, sq_abs]
    have hs : Real.sin ((β - α) / 2) ^ 2 = 1 / 2 - Real.cos (β - α) / 2 := by
      have := Real.cos_sq ((β - α) / 2)
      have h1 := Real.sin_sq_add_cos_sq ((β - α) / 2)
      rw [show 2 * ((β - α) / 2) = β - α by ring] at this
      linarith
    rw [mul_pow, hs, Real.cos_sub]
    have ha := Real.sin_sq_add_cos_sq α
    have hb := Real.sin_sq_add_cos_sq β
    linear_combination r ^ 2 * ha + r ^ 2 * hb
  rw [key, Real.sqrt_sq (by positivity)]

theorem sin_frac_nonneg {n k : Nat} (hn : 3 ≤ n) (hk : k ≤ n) : 0 ≤ Real.sin (k * Real.pi / n) := by
  have h0 : (0 : ℝ) < n := by
    have : 0 < n := by omega
    exact_mod_cast this
  have hk' : (k : ℝ) ≤ n := by exact_mod_cast hk
  have pp := Real.pi_pos
  apply Real.sin_nonneg_of_nonneg_of_le_pi
  · positivity
  · rw [div_le_iff₀ h0]
    nlinarith

theorem sin_frac_pos {n k : Nat} (hk0 : 0 < k) (hk : k < n) : 0 < Real.sin (k * Real.pi / n) := by
  have h0 : (0 : ℝ) < n := by
    have : 0 < n := by omega
    exact_mod_cast this
  have hk' : (k : ℝ) < n := by exact_mod_cast hk
  have hk0' : (0 : ℝ) < k := by exact_mod_cast hk0
  have pp := Real.pi_pos
  apply Real.sin_pos_of_pos_of_lt_pi
  · positivity
  · rw [div_lt_iff₀ h0]
    nlinarith

/-- half the difference of azimuths -/
theorem half_azimuth (n i j : Nat) (h : i ≤ j) : (azimuth n j - azimuth n i) / 2 = ((j - i : Nat) : ℝ) * Real.pi / n := by
  unfold azimuth
  rw [Nat.cast_sub h]
  ring

theorem half_azimuth' (n i j : Nat) (h : j ≤ i) : (azimuth n j - azimuth n i) / 2 = -(((i - j : Nat) : ℝ) * Real.pi / n) := by
  rw [← half_azimuth n j i h]
  ring

/-- the polygon -/
noncomputable def polygonOf (n : Nat) (radius : ℝ) (centre : V3) : Line := { n := n, c := fun i => onCircle radius centre (azimuth n i), closed := true }

theorem regularPolygon_ok {n : Nat} {radius : ℝ} (h : 3 ≤ n ∧ 0 < radius) (centre : V3) :
    regularPolygon n radius centre = .ok (polygonOf n radius centre) := by
  unfold regularPolygon
  rw [if_neg (not_not.mpr h)]
  rfl

theorem polygon_stop {n : Nat} {radius : ℝ} (hn : 3 ≤ n) (centre : V3) (i : Nat) (hi : i < n) :
    (polygonOf n radius centre).stop i = onCircle radius centre (azimuth n (i + 1)) := by
  unfold Line.stop
  split
  · rename_i h
    have : i + 1 = n := h
    show onCircle radius centre (azimuth n 0) = _
    rw [this, onCircle_turn radius centre hn]
  · rfl

theorem polygon_left {n : Nat} {radius : ℝ} (hn : 3 ≤ n) (centre : V3) (i m : Nat) (hi : i < n) (hm : m < n) :
    ∃ a b : Nat, left ((polygonOf n radius centre).start i) ((polygonOf n radius centre).stop i) ((polygonOf n radius centre).c m) =
      -(4 * radius ^ 2 * (Real.sin (((1 : Nat) : ℝ) * Real.pi / n) * (Real.sin ((a : ℝ) * Real.pi / n) * Real.sin ((b : ℝ) * Real.pi / n)))) ∧ a ≤ n ∧ b ≤ n ∧
      (m ≠ i → m ≠ i + 1 → 0 < a ∧ a < n ∧ 0 < b ∧ b < n ∨ (m = 0 ∧ i + 1 = n)) := by
  rw [polygon_stop hn centre i hi]
  show ∃ a b : Nat, left (onCircle radius centre (azimuth n i)) _ (onCircle radius centre (azimuth n m)) = _ ∧ _
  rw [left_onCircle, half_azimuth n i (i + 1) (by omega)]
  have e1 : i + 1 - i = 1 := by omega
  rw [e1]
  by_cases h : i + 1 ≤ m
  · refine ⟨m - i, m - (i + 1), ?_, by omega, by omega, fun _ _ => Or.inl (by omega)⟩
    rw [half_azimuth n i m (by omega), half_azimuth n (i + 1) m h]
  · refine ⟨i - m, i + 1 - m, ?_, by omega, by omega, fun _ _ => by omega⟩
    rw [half_azimuth' n i m (by omega), half_azimuth' n (i + 1) m (by omega), Real.sin_neg, Real.sin_neg]
    ring

/-! ## Theorems -/

/-- C134: fewer than three nodes, or a radius which is not positive, are refused; otherwise there is a regular polygon with that number of nodes on the
circle with the given centre and radius. -/
theorem C134_regular (n : Nat) (radius : ℝ) (centre : V3) :
    (¬ (3 ≤ n ∧ 0 < radius) → regularPolygon n radius centre = .error .assertion) ∧
    (3 ≤ n ∧ 0 < radius → ∃ l, regularPolygon n radius centre = .ok l ∧ l.n = n ∧
      l.Regular centre radius (2 * radius * Real.sin (Real.pi / n))) := by
  constructor
  · intro h
    unfold regularPolygon
    rw [if_pos h]
  · intro h
    refine ⟨_, regularPolygon_ok h centre, rfl, rfl, ?_, ?_⟩
    · intro i hi
      refine ⟨?_, ?_⟩
      · show dist true centre (onCircle radius centre (azimuth n i)) = radius
        unfold dist
        simp only [if_true]
        have c0 : onCircle radius centre (azimuth n i) 0 = radius * Real.sin (azimuth n i) + centre 0 := rfl
        have c1 : onCircle radius centre (azimuth n i) 1 = radius * Real.cos (azimuth n i) + centre 1 := rfl
        rw [c0, c1]
        have : (radius * Real.sin (azimuth n i) + centre 0 - centre 0) ^ 2 + (radius * Real.cos (azimuth n i) + centre 1 - centre 1) ^ 2 = radius ^ 2 := by
          linear_combination radius ^ 2 * Real.sin_sq_add_cos_sq (azimuth n i)
        rw [this, Real.sqrt_sq (le_of_lt h.2)]
      · show 0 + centre 2 = centre 2
        ring
    · intro i hi
      have hi' : i < n := hi
      unfold Line.len
      rw [polygon_stop h.1 centre i hi']
      show dist false (onCircle radius centre (azimuth n i)) _ = _
      rw [chord, half_azimuth n i (i + 1) (by omega)]
      have e1 : i + 1 - i = 1 := by omega
      have hs := sin_frac_pos (n := n) (k := 1) (by omega) (by omega)
      rw [e1, abs_of_pos (mul_pos h.2 hs)]
      push_cast
      rw [one_mul]
      ring

/-- C134: it is convex, and goes round clockwise when the second axis is a quarter turn anticlockwise from the first; its nodes are distinct from their
neighbours and not in a line. -/
theorem C134_convex (n : Nat) (radius : ℝ) (centre : V3) (h : 3 ≤ n ∧ 0 < radius) :
    ∃ l, regularPolygon n radius centre = .ok l ∧ l.Convex (-1) := by
  have hs := sin_frac_pos (n := n) (k := 1) (by omega) (by omega)
  refine ⟨_, regularPolygon_ok h centre, rfl, h.1, Or.inr rfl, ?_, ?_, ?_⟩
  · intro i hi m hm
    obtain ⟨a, b, e, ha, hb, _⟩ := polygon_left (radius := radius) h.1 centre i m hi hm
    rw [e]
    have h1 := sin_frac_nonneg h.1 ha
    have h2 := sin_frac_nonneg h.1 hb
    have := mul_nonneg (show 0 ≤ 4 * radius ^ 2 by positivity) (mul_nonneg (le_of_lt hs) (mul_nonneg h1 h2))
    linarith
  · intro i hi ⟨e0, e1⟩
    have hi' : i < n := hi
    have hl := (C134_regular n radius centre).2 h
    obtain ⟨l, hl1, -, hl2⟩ := hl
    have : l = polygonOf n radius centre := by
      have := hl1.symm.trans (regularPolygon_ok h centre)
      exact Except.ok.inj this
    subst this
    have hlen := hl2.sides i hi
    have hz : (polygonOf n radius centre).len false i = 0 := by
      unfold Line.len dist
      simp only [Bool.false_eq_true, if_false]
      have z1 : (polygonOf n radius centre).stop i 2 = 0 + centre 2 := by rw [polygon_stop h.1 centre i hi']; rfl
      have z2 : (polygonOf n radius centre).start i 2 = 0 + centre 2 := rfl
      rw [z1, z2, ← e0, ← e1]
      norm_num
    rw [hz] at hlen
    push_cast at hs
    rw [one_mul] at hs
    have := mul_pos (mul_pos (show (0 : ℝ) < 2 by norm_num) h.2) hs
    linarith
  · refine ⟨0, by show 0 < n; omega, 2, by show 2 < n; omega, ?_⟩
    obtain ⟨a, b, e, ha, hb, hab⟩ := polygon_left (radius := radius) h.1 centre 0 2 (by omega) (by omega)
    rw [e]
    rcases hab (by omega) (by omega) with ⟨a0, an, b0, bn⟩ | ⟨h0, _⟩
    · have h1 := sin_frac_pos a0 an
      have h2 := sin_frac_pos b0 bn
      have := mul_pos (show 0 < 4 * radius ^ 2 by have := h.2; positivity) (mul_pos hs (mul_pos h1 h2))
      intro h0
      linarith
    · omega

/-- C134: its area, as found by the code, is that of as many triangles with corners at the centre. -/
theorem C134_area (n : Nat) (radius sampled : ℝ) (centre : V3) (h : 3 ≤ n ∧ 0 < radius) :
    ∃ l m, regularPolygon n radius centre = .ok l ∧ l.area ⟨none, none⟩ sampled = .ok (n * (radius ^ 2 * Real.sin (2 * Real.pi / n) / 2), m) := by
  obtain ⟨l, hl, hc⟩ := C134_convex n radius centre h
  obtain ⟨m, hm⟩ := C131_area_partial l (-1) (centre 2) sampled ⟨none, none⟩ hc (by
    have : l = polygonOf n radius centre := Except.ok.inj (hl.symm.trans (regularPolygon_ok h centre))
    subst this
    intro i hi
    show 0 + centre 2 = centre 2
    ring) rfl
  refine ⟨l, m, hl, ?_⟩
  rw [hm]
  congr 2
  have e : l = polygonOf n radius centre := Except.ok.inj (hl.symm.trans (regularPolygon_ok h centre))
  subst e
  have hsh : (polygonOf n radius centre).shoelace = -(n * (radius ^ 2 * Real.sin (2 * Real.pi / n))) := by
    rw [← shoelace_fan _ centre]
    have hterm : ∀ i ∈ range n, left ((polygonOf n radius centre).start i) ((polygonOf n radius centre).stop i) centre = -(radius ^ 2 * Real.sin (2 * Real.pi / n)) := by
      intro i hi
      rw [polygon_stop h.1 centre i (Finset.mem_range.mp hi)]
      show left (onCircle radius centre (azimuth n i)) _ centre = _
      rw [left_centre]
      congr 3
      unfold azimuth
      push_cast
      ring
    show ∑ i ∈ range n, _ = _
    rw [Finset.sum_congr rfl hterm, Finset.sum_const, Finset.card_range, nsmul_eq_mul]
    ring
  have hpos := shoelace_sign hc
  rw [abs_of_neg (by linarith), hsh]
  ring

/-- the hypotheses are met: a hexagon -/
example : (3 : Nat) ≤ 6 ∧ (0 : ℝ) < 2 := ⟨by omega, by norm_num⟩

end Verif.Polyline
