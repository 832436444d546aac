import Verif.Polyline.PropsNearest
import Mathlib.Analysis.SpecialFunctions.Trigonometric.Arctan

/-! # C133: normalised coordinates within convex polygons -/

namespace Verif.Polyline
open Verif.Py
open Verif.Wells.Survey (V3)
open Verif.Rotate (length)
open Verif.Geom (lineLine At ParallelLines parallelLines_iff divisorOf)
open Finset

/-! ## Specification -/

/-- which side of the line through two nodes a point in plan is on: as `left` -/
def side (a b : V3) (p : ℝ × ℝ) : ℝ := (b 0 - a 0) * (p.2 - a 1) - (b 1 - a 1) * (p.1 - a 0)

/-- the point is within the convex polygon, or on its edge -/
def Line.Within (l : Line) (σ : ℝ) (p : ℝ × ℝ) : Prop := ∀ i < l.n, 0 ≤ σ * side (l.start i) (l.stop i) p

/-! ## Lemmas -/

theorem side_pt (a b c : V3) : side a b (pt c) = left a b c := rfl

theorem sigma_ne {l : Line} {σ : ℝ} (h : l.Convex σ) : σ ≠ 0 := by
  rcases h.sign with e | e <;> rw [e] <;> norm_num

theorem pieces_n {l : Line} {σ : ℝ} (h : l.Convex σ) : l.pieces = l.n := by
  unfold Line.pieces
  rw [h.closed]
  rfl

theorem len_pos {l : Line} (h : l.NoRepeat) (inXy : Bool) {i : Nat} (hi : i < l.n) : 0 < l.len inXy i := by
  have hn := h i hi
  have hp : 0 < (l.stop i 0 - l.start i 0) ^ 2 + (l.stop i 1 - l.start i 1) ^ 2 := by
    rcases not_and_or.mp hn with g | g
    · have : l.stop i 0 - l.start i 0 ≠ 0 := fun e => g (by linarith)
      positivity
    · have : l.stop i 1 - l.start i 1 ≠ 0 := fun e => g (by linarith)
      positivity
  unfold Line.len dist
  cases inXy
  · simp only [Bool.false_eq_true, if_false]
    apply Real.sqrt_pos.mpr
    positivity
  · simp only [if_true]
    exact Real.sqrt_pos.mpr hp

theorem whole_pos {l : Line} {σ : ℝ} (h : l.Convex σ) (inXy : Bool) : 0 < l.whole inXy := by
  have h3 := h.three
  unfold Line.whole Line.before
  rw [pieces_n h]
  refine Finset.sum_pos (fun i hi => len_pos h.noRepeat inXy (Finset.mem_range.mp hi)) ⟨0, Finset.mem_range.mpr (by omega)⟩

theorem stop_node (l : Line) {i : Nat} (hi : i < l.n) : ∃ j < l.n, l.stop i = l.c j := by
  unfold Line.stop
  split
  · exact ⟨0, by omega, rfl⟩
  · exact ⟨i + 1, by omega, rfl⟩

/-- some node is off the line of each piece -/
theorem off_line {l : Line} {σ : ℝ} (h : l.Convex σ) {i : Nat} (hi : i < l.n) : ∃ m < l.n, left (l.start i) (l.stop i) (l.c m) ≠ 0 := by
  by_contra hc
  push Not at hc
  obtain ⟨k, hk, m, hm, hne⟩ := h.notStraight
  obtain ⟨j, hj, e⟩ := stop_node l hk
  rw [e] at hne
  exact hne (line_of_three (h.noRepeat i hi) (hc k hk) (hc j hj) (hc m hm))

/-- the balanced centre -/
theorem centre_of {l : Line} {σ : ℝ} (h : l.Convex σ) : ∃ c, l.balancedCentre none false 20 true false = .ok (c, some c) ∧
    ∀ i < l.n, 0 < σ * left (l.start i) (l.stop i) c := by
  have hw := whole_pos h false
  obtain ⟨c, h1, h2⟩ := C130_centre l none 20 true false (Or.inr rfl) hw
  refine ⟨c, h1, ?_⟩
  intro i hi
  simp only [Bool.false_eq_true, false_and, if_false] at h2
  have e : σ * left (l.start i) (l.stop i) c * l.whole false = ∑ j ∈ range l.pieces, l.len false j *
      ((σ * left (l.start i) (l.stop i) (l.start j) + σ * left (l.start i) (l.stop i) (l.stop j)) / 2) := by
    have hW : l.whole false = ∑ j ∈ range l.pieces, l.len false j := rfl
    have : σ * left (l.start i) (l.stop i) c * l.whole false = σ * ((l.stop i 0 - l.start i 0) * (c 1 * l.whole false) -
        (l.stop i 1 - l.start i 1) * (c 0 * l.whole false)) -
        σ * ((l.stop i 0 - l.start i 0) * l.start i 1 - (l.stop i 1 - l.start i 1) * l.start i 0) * l.whole false := by
      unfold left
      ring
    rw [this, h2 0, h2 1, hW, Finset.mul_sum, Finset.mul_sum, ← Finset.sum_sub_distrib, Finset.mul_sum, Finset.mul_sum, ← Finset.sum_sub_distrib]
    refine Finset.sum_congr rfl fun j _ => ?_
    unfold left
    ring
  have nn : ∀ j < l.n, 0 ≤ σ * left (l.start i) (l.stop i) (l.stop j) := by
    intro j hj
    obtain ⟨m, hm, em⟩ := stop_node l hj
    rw [em]
    exact h.oneSided i hi m hm
  have hpos : 0 < σ * left (l.start i) (l.stop i) c * l.whole false := by
    rw [e, pieces_n h]
    obtain ⟨m, hm, hne⟩ := off_line h hi
    refine Finset.sum_pos' (fun j hj => ?_) ⟨m, Finset.mem_range.mpr hm, ?_⟩
    · have hj' := Finset.mem_range.mp hj
      have := nn j hj'
      have := h.oneSided i hi j hj'
      have h3 := len_nonneg l false j
      rw [Line.start] at *
      apply mul_nonneg h3
      unfold Line.start
      linarith
    · have g1 := nn m hm
      have g2 : 0 < σ * left (l.start i) (l.stop i) (l.start m) :=
        lt_of_le_of_ne (h.oneSided i hi m hm) (Ne.symm (mul_ne_zero (sigma_ne h) hne))
      have g3 := len_pos h.noRepeat false hm
      exact mul_pos g3 (by linarith)
  by_contra hc
  have := mul_nonpos_of_nonpos_of_nonneg (not_lt.mp hc) (le_of_lt hw)
  linarith

/-! ### A half line from a point inside meets the edge -/

/-- the component of a node across a direction, from a point -/
def acrossOf (o d : ℝ × ℝ) (v : V3) : ℝ := d.1 * (v 1 - o.2) - d.2 * (v 0 - o.1)

/-- and along it -/
def alongOf (o d : ℝ × ℝ) (v : V3) : ℝ := d.1 * (v 0 - o.1) + d.2 * (v 1 - o.2)

theorem side_cross (o d : ℝ × ℝ) (a b : V3) : (d.1 ^ 2 + d.2 ^ 2) * side a b o = alongOf o d a * acrossOf o d b - acrossOf o d a * alongOf o d b := by
  unfold side alongOf acrossOf
  ring

theorem norm_pos {d : ℝ × ℝ} (hd : d ≠ (0, 0)) : 0 < d.1 ^ 2 + d.2 ^ 2 := by
  by_cases h : d.1 = 0
  · have : d.2 ≠ 0 := fun e => hd (Prod.ext h e)
    positivity
  · positivity

/-- not all nodes are strictly on one side of a line through a point inside -/
theorem not_one_side {l : Line} {σ : ℝ} (h3 : 2 ≤ l.n) (o d : ℝ × ℝ) (hd : d ≠ (0, 0)) (ho : ∀ i < l.n, 0 < σ * side (l.start i) (l.stop i) o)
    (hs : ∀ i < l.n, ∀ j < l.n, 0 < acrossOf o d (l.c i) * acrossOf o d (l.c j)) : False := by
  have hN := norm_pos hd
  -- the ratio falls along each piece
  have step : ∀ i < l.n, σ * (alongOf o d (l.stop i) / acrossOf o d (l.stop i)) < σ * (alongOf o d (l.start i) / acrossOf o d (l.start i)) := by
    intro i hi
    obtain ⟨j, hj, e⟩ := stop_node l hi
    have hp := hs i hi j hj
    have hne1 : acrossOf o d (l.c i) ≠ 0 := fun h0 => by rw [h0, zero_mul] at hp; exact lt_irrefl _ hp
    have hne2 : acrossOf o d (l.c j) ≠ 0 := fun h0 => by rw [h0, mul_zero] at hp; exact lt_irrefl _ hp
    have hx := side_cross o d (l.start i) (l.stop i)
    have hpos : 0 < (d.1 ^ 2 + d.2 ^ 2) * (σ * side (l.start i) (l.stop i) o) := mul_pos hN (ho i hi)
    rw [e] at hx hpos ⊢
    unfold Line.start at hx hpos ⊢
    have : σ * (alongOf o d (l.c i) / acrossOf o d (l.c i)) - σ * (alongOf o d (l.c j) / acrossOf o d (l.c j)) =
        σ * ((d.1 ^ 2 + d.2 ^ 2) * side (l.c i) (l.c j) o) / (acrossOf o d (l.c i) * acrossOf o d (l.c j)) := by
      rw [hx]
      field_simp
    have h4 : 0 < σ * ((d.1 ^ 2 + d.2 ^ 2) * side (l.c i) (l.c j) o) / (acrossOf o d (l.c i) * acrossOf o d (l.c j)) := by
      apply div_pos _ hp
      have : σ * ((d.1 ^ 2 + d.2 ^ 2) * side (l.c i) (l.c j) o) = (d.1 ^ 2 + d.2 ^ 2) * (σ * side (l.c i) (l.c j) o) := by ring
      rw [this]
      exact hpos
    linarith
  have down : ∀ k, k < l.n → σ * (alongOf o d (l.c k) / acrossOf o d (l.c k)) ≤ σ * (alongOf o d (l.c 0) / acrossOf o d (l.c 0)) := by
    intro k
    induction k with
    | zero => intro _; exact le_refl _
    | succ k ih =>
      intro hk
      have s := step k (by omega)
      unfold Line.start Line.stop at s
      rw [if_neg (by omega)] at s
      linarith [ih (by omega)]
  have s := step (l.n - 1) (by omega)
  unfold Line.start Line.stop at s
  rw [if_pos (by omega)] at s
  linarith [down (l.n - 1) (by omega)]

/-- going round, the nodes pass from one side of a line through a point inside to the other -/
theorem passes {l : Line} {σ : ℝ} (h3 : 2 ≤ l.n) (o d : ℝ × ℝ) (hd : d ≠ (0, 0)) (ho : ∀ i < l.n, 0 < σ * side (l.start i) (l.stop i) o) :
    ∃ i < l.n, σ * acrossOf o d (l.start i) ≤ 0 ∧ 0 < σ * acrossOf o d (l.stop i) := by
  by_contra hc
  push Not at hc
  have hN := norm_pos hd
  have hstart : ∀ i, l.start i = l.c i := fun _ => rfl
  -- if one node is not on the left, none is
  have spread : (∃ k < l.n, σ * acrossOf o d (l.c k) ≤ 0) → ∀ i < l.n, σ * acrossOf o d (l.c i) ≤ 0 := by
    rintro ⟨k, hk, hk0⟩
    have up : ∀ j, k ≤ j → j < l.n → σ * acrossOf o d (l.c j) ≤ 0 := by
      intro j hj
      induction j, hj using Nat.le_induction with
      | base => intro _; exact hk0
      | succ j hj ih =>
        intro hlt
        have := hc j (by omega) (ih (by omega))
        unfold Line.stop at this
        rwa [if_neg (by omega)] at this
    have zero : σ * acrossOf o d (l.c 0) ≤ 0 := by
      have := hc (l.n - 1) (by omega) (up (l.n - 1) (by omega) (by omega))
      unfold Line.stop at this
      rwa [if_pos (by omega)] at this
    intro i
    induction i with
    | zero => intro _; exact zero
    | succ i ih =>
      intro hlt
      have := hc i (by omega) (ih (by omega))
      unfold Line.stop at this
      rwa [if_neg (by omega)] at this
  have key : ∀ i < l.n, 0 < (d.1 ^ 2 + d.2 ^ 2) * (σ * side (l.start i) (l.stop i) o) := fun i hi => mul_pos hN (ho i hi)
  have key' : ∀ i < l.n, 0 < alongOf o d (l.start i) * (σ * acrossOf o d (l.stop i)) - (σ * acrossOf o d (l.start i)) * alongOf o d (l.stop i) := by
    intro i hi
    have k0 := key i hi
    have e := side_cross o d (l.start i) (l.stop i)
    have e' : (d.1 ^ 2 + d.2 ^ 2) * (σ * side (l.start i) (l.stop i) o) = σ * ((d.1 ^ 2 + d.2 ^ 2) * side (l.start i) (l.stop i) o) := by ring
    rw [e', e] at k0
    linarith
  by_cases hex : ∃ k < l.n, σ * acrossOf o d (l.c k) ≤ 0
  · have hall := spread hex
    have strict : ∀ i < l.n, σ * acrossOf o d (l.c i) < 0 := by
      intro i hi
      refine lt_of_le_of_ne (hall i hi) fun h0 => ?_
      have k1 := key' i hi
      obtain ⟨j, hj, ej⟩ := stop_node l hi
      rw [hstart, ej, h0, zero_mul, sub_zero] at k1
      have s1 := hall j hj
      have a1 : alongOf o d (l.c i) < 0 := by
        by_contra hge
        have := mul_nonpos_of_nonneg_of_nonpos (not_lt.mp hge) s1
        linarith
      have hp := prev_lt l hi
      have k2 := key' (l.prev i) hp
      rw [← (back_prev l hi).2, h0, mul_zero, zero_sub] at k2
      have s2 := hall (l.prev i) hp
      rw [hstart] at k2
      have := mul_nonneg_of_nonpos_of_nonpos s2 (le_of_lt a1)
      linarith
    refine not_one_side h3 o d hd ho ?_
    intro i hi j hj
    have e : (σ * acrossOf o d (l.c i)) * (σ * acrossOf o d (l.c j)) = σ ^ 2 * (acrossOf o d (l.c i) * acrossOf o d (l.c j)) := by ring
    have hpos := mul_pos_of_neg_of_neg (strict i hi) (strict j hj)
    rw [e] at hpos
    exact pos_of_mul_pos_right hpos (sq_nonneg σ)
  · push Not at hex
    refine not_one_side h3 o d hd ho ?_
    intro i hi j hj
    have e : (σ * acrossOf o d (l.c i)) * (σ * acrossOf o d (l.c j)) = σ ^ 2 * (acrossOf o d (l.c i) * acrossOf o d (l.c j)) := by ring
    have hpos := mul_pos (hex i hi) (hex j hj)
    rw [e] at hpos
    exact pos_of_mul_pos_right hpos (sq_nonneg σ)

/-- a half line from a point inside meets a piece of the edge which is not parallel to it -/
theorem ray_hits {l : Line} {σ : ℝ} (hp : l.pieces = l.n) (h3 : 2 ≤ l.n) (o b : ℝ × ℝ) (hb : o ≠ b)
    (ho : ∀ i < l.n, 0 < σ * side (l.start i) (l.stop i) o) : ∃ k x y, l.firstIntersection o b true = some (k, x, y) := by
  cases hf : l.firstIntersection o b true with
  | some r => exact ⟨r.1, r.2.1, r.2.2, rfl⟩
  | none =>
    exfalso
    rw [C132_none] at hf
    set d : ℝ × ℝ := (b.1 - o.1, b.2 - o.2) with hd
    have hd0 : d ≠ (0, 0) := by
      intro e
      apply hb
      have e1 : b.1 - o.1 = 0 := congrArg Prod.fst e
      have e2 : b.2 - o.2 = 0 := congrArg Prod.snd e
      exact Prod.ext (by linarith) (by linarith)
    have hN := norm_pos hd0
    obtain ⟨i, hi, s1, s2⟩ := passes h3 o d hd0 ho
    apply hf
    set A := acrossOf o d (l.start i) with hA
    set B := acrossOf o d (l.stop i) with hB
    have hσ : σ ≠ 0 := fun e => by rw [e, zero_mul] at s2; exact lt_irrefl _ s2
    have hAB : B - A ≠ 0 := by
      intro e
      have : B = A := by linarith
      rw [this] at s2
      linarith
    set u : ℝ := A / (A - B) with hu
    have hBA : A - B ≠ 0 := fun e => hAB (by linarith)
    have ue : u * (A - B) = A := div_mul_cancel₀ _ hBA
    have uσ : u * (σ * A - σ * B) = σ * A := by
      have : u * (σ * A - σ * B) = σ * (u * (A - B)) := by ring
      rw [this, ue]
    have hneg : σ * A - σ * B < 0 := by linarith
    have u0 : 0 ≤ u := by
      by_contra hc
      have := mul_pos_of_neg_of_neg (not_le.mp hc) hneg
      linarith
    have u1 : u < 1 := by
      by_contra hc
      have : u * (σ * A - σ * B) ≤ 1 * (σ * A - σ * B) := mul_le_mul_of_nonpos_right (not_lt.mp hc) (le_of_lt hneg)
      linarith
    -- the point
    set q : ℝ × ℝ := (l.start i 0 + u * (l.stop i 0 - l.start i 0), l.start i 1 + u * (l.stop i 1 - l.start i 1)) with hq
    have hcross : d.1 * (q.2 - o.2) - d.2 * (q.1 - o.1) = 0 := by
      have : d.1 * (q.2 - o.2) - d.2 * (q.1 - o.1) = A - u * (A - B) := by
        rw [hq, hA, hB]
        unfold acrossOf
        ring
      rw [this, ue, sub_self]
    set t : ℝ := (d.1 * (q.1 - o.1) + d.2 * (q.2 - o.2)) / (d.1 ^ 2 + d.2 ^ 2) with ht
    have te : t * (d.1 ^ 2 + d.2 ^ 2) = d.1 * (q.1 - o.1) + d.2 * (q.2 - o.2) := div_mul_cancel₀ _ (ne_of_gt hN)
    have q1 : q.1 = o.1 + t * d.1 := by
      apply mul_right_cancel₀ (ne_of_gt hN)
      have : (o.1 + t * d.1) * (d.1 ^ 2 + d.2 ^ 2) = o.1 * (d.1 ^ 2 + d.2 ^ 2) + d.1 * (t * (d.1 ^ 2 + d.2 ^ 2)) := by ring
      rw [this, te]
      linear_combination -d.2 * hcross
    have q2 : q.2 = o.2 + t * d.2 := by
      apply mul_right_cancel₀ (ne_of_gt hN)
      have : (o.2 + t * d.2) * (d.1 ^ 2 + d.2 ^ 2) = o.2 * (d.1 ^ 2 + d.2 ^ 2) + d.2 * (t * (d.1 ^ 2 + d.2 ^ 2)) := by ring
      rw [this, te]
      linear_combination d.1 * hcross
    have tpos : 0 < t := by
      have e : (1 - u) * (σ * side (l.start i) (l.stop i) o) = t * (σ * B) := by
        have hs : side (l.start i) (l.stop i) o = (l.start i 0 - o.1) * (l.stop i 1 - o.2) - (l.start i 1 - o.2) * (l.stop i 0 - o.1) := by
          unfold side
          ring
        have x1 : l.start i 0 + u * (l.stop i 0 - l.start i 0) = o.1 + t * d.1 := q1
        have x2 : l.start i 1 + u * (l.stop i 1 - l.start i 1) = o.2 + t * d.2 := q2
        rw [hs, hB]
        unfold acrossOf
        linear_combination σ * (l.stop i 1 - o.2) * x1 - σ * (l.stop i 0 - o.1) * x2
      have : 0 < t * (σ * B) := by
        rw [← e]
        exact mul_pos (by linarith) (ho i hi)
      exact pos_of_mul_pos_left this (le_of_lt s2)
    refine ⟨i, by rw [hp]; exact hi, q, ?_, ⟨t, le_of_lt tpos, fun h => absurd h (by simp), q1, q2⟩, ⟨u, u0, le_of_lt u1, rfl, rfl⟩⟩
    unfold Line.Across
    rw [parallelLines_iff]
    intro h0
    apply hAB
    rw [hA, hB]
    unfold divisorOf pt at h0
    unfold acrossOf
    simp only at h0
    rw [hd]
    linear_combination h0

theorem side_at (a b : V3) (o p q : ℝ × ℝ) (t : ℝ) (h : At o p t q) : side a b q = (1 - t) * side a b o + t * side a b p := by
  unfold side
  rw [h.1, h.2]
  ring

theorem side_on {l : Line} {i : Nat} {q : ℝ × ℝ} (h : l.OnPiece i q) : side (l.start i) (l.stop i) q = 0 := by
  obtain ⟨t, _, _, h1, h2⟩ := h
  unfold side
  rw [h1, h2]
  unfold pt
  ring

/-- the edge is met at or beyond a point within -/
theorem beyond {l : Line} {σ : ℝ} {o p : ℝ × ℝ} (ho : ∀ i < l.n, 0 < σ * side (l.start i) (l.stop i) o) (hw : l.Within σ p) (hp : l.pieces = l.n)
    {k : Nat} {x y : ℝ} (hf : l.firstIntersection o p true = some (k, x, y)) : ∃ t, 1 ≤ t ∧ At o p t (x, y) := by
  obtain ⟨h1, _, ⟨t, t0, _, ht⟩, h4, _⟩ := (C132_first l o p true k x y).mp hf
  refine ⟨t, ?_, ht⟩
  have hz := side_on h4
  rw [side_at _ _ o p (x, y) t ht] at hz
  have hk : k < l.n := by rw [← hp]; exact h1
  have g1 := ho k hk
  have g2 := hw k hk
  by_contra hc
  have : 0 < (1 - t) * (σ * side (l.start k) (l.stop k) o) + t * (σ * side (l.start k) (l.stop k) p) := by
    have := mul_pos (show 0 < 1 - t by linarith) g1
    have := mul_nonneg t0 g2
    linarith
  have e : (1 - t) * (σ * side (l.start k) (l.stop k) o) + t * (σ * side (l.start k) (l.stop k) p) =
      σ * ((1 - t) * side (l.start k) (l.stop k) o + t * side (l.start k) (l.stop k) p) := by ring
  rw [e, hz, mul_zero] at this
  exact lt_irrefl _ this

/-- the first intersection depends on the direction only -/
theorem first_scaled (l : Line) (o d : ℝ × ℝ) (k : ℝ) (hk : 0 < k) :
    l.firstIntersection o (o.1 + k * d.1, o.2 + k * d.2) true = l.firstIntersection o (o.1 + d.1, o.2 + d.2) true := by
  have hm : ∀ i, i < l.pieces → l.meet o (o.1 + k * d.1, o.2 + k * d.2) true i = l.meet o (o.1 + d.1, o.2 + d.2) true i := by
    intro i hi
    have key : ∀ q, l.meet o (o.1 + k * d.1, o.2 + k * d.2) true i = some q ↔ l.meet o (o.1 + d.1, o.2 + d.2) true i = some q := by
      intro q
      rw [meet_iff l _ _ q true hi, meet_iff l _ _ q true hi]
      have a1 : l.Across o (o.1 + k * d.1, o.2 + k * d.2) i ↔ l.Across o (o.1 + d.1, o.2 + d.2) i := by
        unfold Line.Across
        rw [parallelLines_iff, parallelLines_iff]
        have : divisorOf o (o.1 + k * d.1, o.2 + k * d.2) (pt (l.start i)) (pt (l.stop i)) =
            k * divisorOf o (o.1 + d.1, o.2 + d.2) (pt (l.start i)) (pt (l.stop i)) := by
          unfold divisorOf
          ring
        rw [this, mul_eq_zero]
        constructor
        · intro h hz; exact h (Or.inr hz)
        · rintro h (hz | hz)
          · exact ne_of_gt hk hz
          · exact h hz
      have a2 : Ahead o (o.1 + k * d.1, o.2 + k * d.2) true q ↔ Ahead o (o.1 + d.1, o.2 + d.2) true q := by
        unfold Ahead At
        constructor
        · rintro ⟨t, t0, _, e1, e2⟩
          exact ⟨t * k, by positivity, fun h => absurd h (by simp), by rw [e1]; ring, by rw [e2]; ring⟩
        · rintro ⟨t, t0, _, e1, e2⟩
          refine ⟨t / k, by positivity, fun h => absurd h (by simp), ?_, ?_⟩
          · rw [e1]; field_simp; ring
          · rw [e2]; field_simp; ring
      rw [a1, a2]
    cases h1 : l.meet o (o.1 + k * d.1, o.2 + k * d.2) true i with
    | some q => exact ((key q).mp h1).symm
    | none =>
      cases h2 : l.meet o (o.1 + d.1, o.2 + d.2) true i with
      | none => rfl
      | some q => rw [(key q).mpr h2] at h1; exact absurd h1 (by simp)
  unfold Line.firstIntersection
  have gen : ∀ is : List Nat, (∀ i ∈ is, i < l.pieces) →
      l.firstOf o (o.1 + k * d.1, o.2 + k * d.2) true is = l.firstOf o (o.1 + d.1, o.2 + d.2) true is := by
    intro is
    induction is with
    | nil => intro _; rfl
    | cons s ss ih =>
      intro h
      rw [Line.firstOf, Line.firstOf, hm s (h s List.mem_cons_self), ih fun i hi => h i (List.mem_cons_of_mem _ hi)]
  exact gen _ fun i hi => List.mem_range.mp hi

theorem radial_of {d : ℝ × ℝ} (hd : d ≠ (0, 0)) {t : ℝ} (ht : 0 < t) : radial d (t * d.1, t * d.2) = 1 / t := by
  unfold radial
  simp only
  rw [abs_mul, abs_mul, abs_of_pos ht]
  by_cases h : t * |d.1| > t * |d.2|
  · rw [if_pos h]
    have : d.1 ≠ 0 := fun e => by
      rw [e, abs_zero, mul_zero] at h
      exact absurd h (not_lt.mpr (by positivity))
    field_simp
  · rw [if_neg h]
    have : d.2 ≠ 0 := fun e => by
      rw [e, abs_zero, mul_zero, not_lt] at h
      have h1 : 0 ≤ t * |d.1| := by positivity
      have h2 : t * |d.1| = 0 := le_antisymm h h1
      have h3 : d.1 = 0 := abs_eq_zero.mp ((mul_eq_zero.mp h2).resolve_left (ne_of_gt ht))
      exact hd (Prod.ext h3 e)
    field_simp

/-- the bearing gives back the direction -/
theorem bearing_of {d : ℝ × ℝ} (hd : d ≠ (0, 0)) {t : ℝ} (ht : 0 < t) :
    (∃ k, 0 < k ∧ Real.cos (bearing d (t * d.1, t * d.2)) = k * d.1 ∧ Real.sin (bearing d (t * d.1, t * d.2)) = k * d.2) ∧
    -(Real.pi / 2) < bearing d (t * d.1, t * d.2) ∧ bearing d (t * d.1, t * d.2) < 2 * Real.pi := by
  have pp := Real.pi_pos
  unfold bearing
  simp only
  rw [abs_mul, abs_mul, abs_of_pos ht]
  by_cases h : t * |d.1| > t * |d.2|
  · rw [if_pos h]
    have hne : d.1 ≠ 0 := fun e => by
      rw [e, abs_zero, mul_zero] at h
      exact absurd h (not_lt.mpr (by positivity))
    have hs : 0 < Real.sqrt (1 + (d.2 / d.1) ^ 2) := Real.sqrt_pos.mpr (by positivity)
    have b1 := Real.neg_pi_div_two_lt_arctan (d.2 / d.1)
    have b2 := Real.arctan_lt_pi_div_two (d.2 / d.1)
    by_cases hn : d.1 < 0
    · rw [if_pos hn]
      refine ⟨⟨1 / (-d.1 * Real.sqrt (1 + (d.2 / d.1) ^ 2)), ?_, ?_, ?_⟩, by linarith, by linarith⟩
      · exact one_div_pos.mpr (mul_pos (by linarith) hs)
      · rw [Real.cos_add_pi, Real.cos_arctan]
        generalize Real.sqrt (1 + (d.2 / d.1) ^ 2) = r at *
        field_simp
      · rw [Real.sin_add_pi, Real.sin_arctan]
        generalize Real.sqrt (1 + (d.2 / d.1) ^ 2) = r at *
        field_simp
    · rw [if_neg hn]
      have hp : 0 < d.1 := lt_of_le_of_ne (not_lt.mp hn) (Ne.symm hne)
      refine ⟨⟨1 / (d.1 * Real.sqrt (1 + (d.2 / d.1) ^ 2)), ?_, ?_, ?_⟩, by linarith, by linarith⟩
      · exact one_div_pos.mpr (mul_pos hp hs)
      · rw [add_zero, Real.cos_arctan]
        generalize Real.sqrt (1 + (d.2 / d.1) ^ 2) = r at *
        field_simp
      · rw [add_zero, Real.sin_arctan]
        generalize Real.sqrt (1 + (d.2 / d.1) ^ 2) = r at *
        field_simp
  · rw [if_neg h]
    have hne : d.2 ≠ 0 := fun e => by
      rw [e, abs_zero, mul_zero, not_lt] at h
      have h1 : 0 ≤ t * |d.1| := by positivity
      have h2 : t * |d.1| = 0 := le_antisymm h h1
      have h3 : d.1 = 0 := abs_eq_zero.mp ((mul_eq_zero.mp h2).resolve_left (ne_of_gt ht))
      exact hd (Prod.ext h3 e)
    have hs : 0 < Real.sqrt (1 + (d.1 / d.2) ^ 2) := Real.sqrt_pos.mpr (by positivity)
    have b1 := Real.neg_pi_div_two_lt_arctan (d.1 / d.2)
    have b2 := Real.arctan_lt_pi_div_two (d.1 / d.2)
    by_cases hn : d.2 < 0
    · rw [if_pos hn]
      refine ⟨⟨1 / (-d.2 * Real.sqrt (1 + (d.1 / d.2) ^ 2)), ?_, ?_, ?_⟩, by linarith, ?_⟩
      · exact one_div_pos.mpr (mul_pos (by linarith) hs)
      · rw [Real.cos_add_pi, Real.cos_pi_div_two_sub, Real.sin_arctan]
        generalize Real.sqrt (1 + (d.1 / d.2) ^ 2) = r at *
        field_simp
      · rw [Real.sin_add_pi, Real.sin_pi_div_two_sub, Real.cos_arctan]
        generalize Real.sqrt (1 + (d.1 / d.2) ^ 2) = r at *
        field_simp
      · -- the first component is not the greater
        have habs : |d.1| ≤ |d.2| := by
          by_contra hc
          exact h (mul_lt_mul_of_pos_left (not_le.mp hc) ht)
        have h1 : -1 ≤ d.1 / d.2 := by
          have := (abs_div d.1 d.2).le.trans ((div_le_one (abs_pos.mpr hne)).mpr habs)
          exact (abs_le.mp this).1
        have h2 : -(Real.pi / 4) ≤ Real.arctan (d.1 / d.2) := by
          have := Real.arctan_strictMono.monotone h1
          rwa [Real.arctan_neg, Real.arctan_one] at this
        have : -(Real.pi / 2) < Real.arctan (d.1 / d.2) := b1
        linarith
    · rw [if_neg hn]
      have hp : 0 < d.2 := lt_of_le_of_ne (not_lt.mp hn) (Ne.symm hne)
      refine ⟨⟨1 / (d.2 * Real.sqrt (1 + (d.1 / d.2) ^ 2)), ?_, ?_, ?_⟩, by linarith, by linarith⟩
      · exact one_div_pos.mpr (mul_pos hp hs)
      · rw [add_zero, Real.cos_pi_div_two_sub, Real.sin_arctan]
        generalize Real.sqrt (1 + (d.1 / d.2) ^ 2) = r at *
        field_simp
      · rw [add_zero, Real.sin_pi_div_two_sub, Real.cos_arctan]
        generalize Real.sqrt (1 + (d.1 / d.2) ^ 2) = r at *
        field_simp

theorem turnFraction_of {θ : ℝ} (h1 : -(Real.pi / 2) < θ) (h2 : θ < 2 * Real.pi) :
    Real.cos (2 * Real.pi * turnFraction θ) = Real.cos θ ∧ Real.sin (2 * Real.pi * turnFraction θ) = Real.sin θ ∧
      0 ≤ turnFraction θ ∧ turnFraction θ ≤ 1 := by
  have pp := Real.pi_pos
  have hq : 2 * Real.pi * (θ / (2 * Real.pi)) = θ := by field_simp
  unfold turnFraction
  simp only
  have l1 : -(1 / 4) < θ / (2 * Real.pi) := by
    rw [lt_div_iff₀ (by positivity)]
    linarith
  have l2 : θ / (2 * Real.pi) < 1 := by
    rw [div_lt_iff₀ (by positivity)]
    linarith
  by_cases hc : θ / (2 * Real.pi) < 0
  · rw [if_pos hc]
    have e : 2 * Real.pi * (θ / (2 * Real.pi) + 1) = θ + 2 * Real.pi := by rw [mul_add, hq, mul_one]
    rw [e, Real.cos_add_two_pi, Real.sin_add_two_pi]
    exact ⟨rfl, rfl, by linarith, by linarith⟩
  · rw [if_neg hc, if_neg (by linarith), hq]
    exact ⟨rfl, rfl, not_lt.mp hc, by linarith⟩

theorem convex_asked {l : Line} {σ : ℝ} (h : l.Convex σ) {m : Meta} (hm : m.convex = none ∨ m.convex = some true) : (l.isConvex m true).1 = true := by
  rcases hm with hm | hm
  · rw [(C131_again l m true true h.closed).2.2 hm]
    exact (C131_convex l σ m h).1
  · unfold Line.isConvex
    rw [if_neg (by rw [h.closed]; simp), hm]

theorem normalised_step {l : Line} {σ : ℝ} (h : l.Convex σ) {m : Meta} (hm : m.convex = none ∨ m.convex = some true) {c : V3}
    (hc : l.balancedCentre none false 20 true false = .ok (c, some c)) (x y : ℝ) (mode : Mode) :
    l.normalised m none x y mode = l.normalisedAbout (pt c) x y mode := by
  unfold Line.normalised
  rw [if_neg (by rw [convex_asked h hm]; simp), hc]

theorem denormalised_step {l : Line} {σ : ℝ} (h : l.Convex σ) {m : Meta} (hm : m.convex = none ∨ m.convex = some true) {c : V3}
    (hc : l.balancedCentre none false 20 true false = .ok (c, some c)) {u v : ℝ} (hu : 0 ≤ u ∧ u ≤ 1 ∧ 0 ≤ v ∧ v ≤ 1) (mode : Mode) :
    l.denormalised m none u v mode = l.denormalisedAbout (pt c) u v mode := by
  unfold Line.denormalised
  rw [if_neg (not_not.mpr hu), if_neg (by rw [convex_asked h hm]; simp), hc]

theorem sqrt_inv_sq {t : ℝ} (ht : 1 ≤ t) : Real.sqrt (1 / t * (1 / t)) = 1 / t ∧ 0 ≤ 1 / t * (1 / t) ∧ 1 / t * (1 / t) ≤ 1 := by
  have h0 : 0 < t := by linarith
  have h1 : 1 / t ≤ 1 := (div_le_one h0).mpr ht
  have h2 : 0 ≤ 1 / t := by positivity
  exact ⟨Real.sqrt_mul_self h2, mul_nonneg h2 h2, by nlinarith⟩

/-! ## Theorems -/

/-- C133: in circle mode, each point within or on the edge of a convex polygon has normalised coordinates, between zero and one, and
denormalisation gives the point back. -/
theorem C133_circle (l : Line) (σ : ℝ) (m : Meta) (h : l.Convex σ) (hm : m.convex = none ∨ m.convex = some true) (x y : ℝ) (hw : l.Within σ (x, y)) :
    ∃ u v, l.normalised m none x y .circle = .ok (u, v) ∧ 0 ≤ u ∧ u ≤ 1 ∧ 0 ≤ v ∧ v ≤ 1 ∧ l.denormalised m none u v .circle = .ok (x, y) := by
  have h3 := h.three
  have hp := pieces_n h
  obtain ⟨c, hc, hin⟩ := centre_of h
  have ho : ∀ i < l.n, 0 < σ * side (l.start i) (l.stop i) (pt c) := hin
  rw [normalised_step h hm hc]
  unfold Line.normalisedAbout
  by_cases he : pt c = (x, y)
  · rw [if_pos he]
    refine ⟨0, 0, by simp, le_refl _, zero_le_one, le_refl _, zero_le_one, ?_⟩
    rw [denormalised_step h hm hc ⟨le_refl _, zero_le_one, le_refl _, zero_le_one⟩]
    unfold Line.denormalisedAbout
    rw [mul_zero, Real.cos_zero, Real.sin_zero]
    obtain ⟨k, px, py, hf⟩ := ray_hits (l := l) hp (by omega) (pt c) ((pt c).1 + 1, (pt c).2 + 0) (by
      intro e
      have := congrArg Prod.fst e
      simp only at this
      linarith) ho
    rw [hf]
    simp only [Real.sqrt_zero]
    unfold towards
    rw [zero_mul, zero_mul, add_zero, add_zero, ← he]
  · rw [if_neg he]
    obtain ⟨k, px, py, hf⟩ := ray_hits (l := l) hp (by omega) (pt c) (x, y) he ho
    obtain ⟨t, t1, e1, e2⟩ := beyond ho hw hp hf
    have t0 : 0 < t := by linarith
    rw [hf]
    simp only at e1 e2 ⊢
    have hd : ((x - (pt c).1, y - (pt c).2) : ℝ × ℝ) ≠ (0, 0) := by
      intro e
      apply he
      have a1 : x - (pt c).1 = 0 := congrArg Prod.fst e
      have a2 : y - (pt c).2 = 0 := congrArg Prod.snd e
      exact Prod.ext (by linarith) (by linarith)
    have edp : ((px - (pt c).1, py - (pt c).2) : ℝ × ℝ) = (t * (x - (pt c).1, y - (pt c).2).1, t * (x - (pt c).1, y - (pt c).2).2) := by
      rw [e1, e2]
      ext <;> simp only <;> ring
    rw [edp, radial_of hd t0]
    obtain ⟨⟨κ, k0, hcos, hsin⟩, b1, b2⟩ := bearing_of hd t0
    obtain ⟨f1, f2, f3, f4⟩ := turnFraction_of b1 b2
    obtain ⟨r1, r2, r3⟩ := sqrt_inv_sq t1
    refine ⟨_, _, rfl, r2, r3, f3, f4, ?_⟩
    rw [denormalised_step h hm hc ⟨r2, r3, f3, f4⟩]
    unfold Line.denormalisedAbout
    rw [f1, f2, hcos, hsin, first_scaled l (pt c) (x - (pt c).1, y - (pt c).2) κ k0]
    have e3 : (((pt c).1 + (x - (pt c).1, y - (pt c).2).1, (pt c).2 + (x - (pt c).1, y - (pt c).2).2) : ℝ × ℝ) = (x, y) := by
      ext <;> simp
    rw [e3, hf, r1]
    simp only
    unfold towards
    simp only
    rw [e1, e2]
    congr 2
    · field_simp
      ring
    · field_simp
      ring

theorem within_node {l : Line} {σ : ℝ} (h : l.Convex σ) {j : Nat} (hj : j < l.n) : l.Within σ (pt (l.c j)) := fun i hi => h.oneSided i hi j hj

theorem within_on {l : Line} {σ : ℝ} (h : l.Convex σ) {i : Nat} (hi : i < l.n) {q : ℝ × ℝ} (hq : l.OnPiece i q) : l.Within σ q := by
  obtain ⟨t, t0, t1, ht⟩ := hq
  intro k hk
  rw [side_at _ _ _ _ _ t ht]
  have g1 := within_node h hi k hk
  obtain ⟨j, hj, e⟩ := stop_node l hi
  have g2 := within_node h hj k hk
  rw [← e] at g2
  have g1' : 0 ≤ σ * side (l.start k) (l.stop k) (pt (l.start i)) := g1
  have := mul_nonneg (show 0 ≤ 1 - t by linarith) g1'
  have := mul_nonneg t0 g2
  nlinarith

theorem within_towards {l : Line} {σ : ℝ} {c q : ℝ × ℝ} {f : ℝ} (f0 : 0 ≤ f) (f1 : f ≤ 1) (hc : l.Within σ c) (hq : l.Within σ q) : l.Within σ (towards c q f) := by
  intro k hk
  rw [side_at _ _ c q _ f ⟨rfl, rfl⟩]
  have := mul_nonneg (show 0 ≤ 1 - f by linarith) (hc k hk)
  have := mul_nonneg f0 (hq k hk)
  nlinarith

theorem sqrt_unit {u : ℝ} (h1 : u ≤ 1) : 0 ≤ Real.sqrt u ∧ Real.sqrt u ≤ 1 :=
  ⟨Real.sqrt_nonneg _, Real.sqrt_le_one.mpr h1⟩

/-- C133: in circle and perimeter modes, denormalisation of any pair between zero and one is a point of the polygon. -/
theorem C133_inside (l : Line) (σ : ℝ) (m : Meta) (h : l.Convex σ) (hm : m.convex = none ∨ m.convex = some true) (u v : ℝ)
    (hu : 0 ≤ u ∧ u ≤ 1 ∧ 0 ≤ v ∧ v ≤ 1) (mode : Mode) (hmode : mode ≠ .square) :
    ∃ p, l.denormalised m none u v mode = .ok p ∧ l.Within σ p := by
  have h3 := h.three
  have hp := pieces_n h
  obtain ⟨c, hc, hin⟩ := centre_of h
  have ho : ∀ i < l.n, 0 < σ * side (l.start i) (l.stop i) (pt c) := hin
  have hcw : l.Within σ (pt c) := fun i hi => le_of_lt (ho i hi)
  obtain ⟨s0, s1⟩ := sqrt_unit hu.2.1
  rw [denormalised_step h hm hc hu]
  cases mode with
  | square => exact absurd rfl hmode
  | circle =>
    unfold Line.denormalisedAbout
    obtain ⟨k, px, py, hf⟩ := ray_hits (l := l) hp (by omega) (pt c) ((pt c).1 + Real.cos (2 * Real.pi * v), (pt c).2 + Real.sin (2 * Real.pi * v)) (by
      intro e
      have a1 := congrArg Prod.fst e
      have a2 := congrArg Prod.snd e
      simp only at a1 a2
      have := Real.sin_sq_add_cos_sq (2 * Real.pi * v)
      rw [show Real.cos (2 * Real.pi * v) = 0 by linarith, show Real.sin (2 * Real.pi * v) = 0 by linarith] at this
      norm_num at this) ho
    rw [hf]
    obtain ⟨h1, _, _, h4, _⟩ := (C132_first l _ _ true k px py).mp hf
    exact ⟨_, rfl, within_towards s0 s1 hcw (within_on h (by rw [← hp]; exact h1) h4)⟩
  | perimeter =>
    unfold Line.denormalisedAbout
    obtain ⟨q, g, hq, ha, _⟩ := C130_interpolated l false (if v = 1 then 0 else v) (by split <;> [exact le_refl _; exact hu.2.2.1])
      (by split <;> [exact zero_le_one; exact hu.2.2.2]) (whole_pos h false)
    rw [hq]
    refine ⟨_, rfl, within_towards s0 s1 hcw ?_⟩
    obtain ⟨i, hi, t, t0, t1, e, _⟩ := ha
    refine within_on h (by rw [← hp]; exact hi) ⟨t, t0, t1, ?_, ?_⟩
    · show q 0 = _
      rw [e 0]
      unfold pt
      ring
    · show q 1 = _
      rw [e 1]
      unfold pt
      ring

theorem len_flat {l : Line} {z : ℝ} (hz : ∀ i < l.n, l.c i 2 = z) {i : Nat} (hi : i < l.n) : l.len true i = l.len false i := by
  obtain ⟨j, hj, e⟩ := stop_node l hi
  unfold Line.len dist
  rw [e]
  simp only [if_true, Bool.false_eq_true, if_false]
  congr 1
  have : l.c j 2 - l.start i 2 = 0 := by
    have := hz i hi
    have := hz j hj
    unfold Line.start
    linarith
  rw [this]
  ring

theorem before_flat {l : Line} {z : ℝ} (hz : ∀ i < l.n, l.c i 2 = z) {i : Nat} (hi : i ≤ l.n) : l.before true i = l.before false i := by
  unfold Line.before
  refine Finset.sum_congr rfl fun j hj => len_flat hz ?_
  have := Finset.mem_range.mp hj
  omega

/-- C133: in perimeter mode likewise, if the nodes are at one depth, and the place on the edge is not within a thousand millionth of its end. -/
theorem C133_perimeter_partial (l : Line) (σ z : ℝ) (m : Meta) (h : l.Convex σ) (hm : m.convex = none ∨ m.convex = some true)
    (hz : ∀ i < l.n, l.c i 2 = z) (x y : ℝ) (hw : l.Within σ (x, y)) :
    ∃ u v, l.normalised m none x y .perimeter = .ok (u, v) ∧ 0 ≤ u ∧ u ≤ 1 ∧ 0 ≤ v ∧ v ≤ 1 ∧
      (v = 1 ∨ 1e-9 < 1 - v → l.denormalised m none u v .perimeter = .ok (x, y)) := by
  have h3 := h.three
  have hp := pieces_n h
  obtain ⟨c, hc, hin⟩ := centre_of h
  have ho : ∀ i < l.n, 0 < σ * side (l.start i) (l.stop i) (pt c) := hin
  have hW := whole_pos h false
  rw [normalised_step h hm hc]
  unfold Line.normalisedAbout
  by_cases he : pt c = (x, y)
  · rw [if_pos he]
    refine ⟨0, 0, by simp, le_refl _, zero_le_one, le_refl _, zero_le_one, fun _ => ?_⟩
    rw [denormalised_step h hm hc ⟨le_refl _, zero_le_one, le_refl _, zero_le_one⟩]
    unfold Line.denormalisedAbout
    have e0 : (if (0 : ℝ) = 1 then (0 : ℝ) else 0) = 0 := by simp
    simp only [e0, (interpolated_ends l false).1, Real.sqrt_zero]
    unfold towards
    rw [zero_mul, zero_mul, add_zero, add_zero, ← he]
  · rw [if_neg he]
    obtain ⟨k, px, py, hf⟩ := ray_hits (l := l) hp (by omega) (pt c) (x, y) he ho
    obtain ⟨t, t1, e1, e2⟩ := beyond ho hw hp hf
    have t0 : 0 < t := by linarith
    obtain ⟨hk, _, _, ⟨s, s0, s1, p1, p2⟩, _⟩ := (C132_first l _ _ true k px py).mp hf
    have hk' : k < l.n := by rw [← hp]; exact hk
    rw [hf]
    simp only at e1 e2 p1 p2 ⊢
    have hd : ((x - (pt c).1, y - (pt c).2) : ℝ × ℝ) ≠ (0, 0) := by
      intro e
      apply he
      have a1 : x - (pt c).1 = 0 := congrArg Prod.fst e
      have a2 : y - (pt c).2 = 0 := congrArg Prod.snd e
      exact Prod.ext (by linarith) (by linarith)
    have edp : ((px - (pt c).1, py - (pt c).2) : ℝ × ℝ) = (t * (x - (pt c).1, y - (pt c).2).1, t * (x - (pt c).1, y - (pt c).2).2) := by
      rw [e1, e2]
      ext <;> simp only <;> ring
    rw [edp, radial_of hd t0]
    have wtf : l.whole true = l.whole false := by
      unfold Line.whole
      exact before_flat hz (by rw [hp])
    -- the distance along the edge
    have hlen : length ![px - l.c k 0, py - l.c k 1, 0] = s * l.len true k := by
      have : (![px - l.c k 0, py - l.c k 1, 0] : V3) = upTo true ((fun a => s * (l.stop k a - l.start k a)) - 0) := by
        rw [p1, p2]
        unfold upTo pt Line.start
        simp
      rw [this, length_upTo]
      unfold Line.len dist
      simp only [if_true, Pi.zero_apply, sub_zero]
      rw [show ∀ a b : ℝ, (s * a) ^ 2 + (s * b) ^ 2 = s ^ 2 * (a ^ 2 + b ^ 2) from fun a b => by ring, Real.sqrt_mul (sq_nonneg s), Real.sqrt_sq s0]
    have hpf : l.perimeterFraction k (px, py) = .ok ((l.before false k + s * l.len false k) / l.whole false) := by
      unfold Line.perimeterFraction
      rw [lengthTo_of l true k (le_of_lt hk), fullLength_eq]
      simp only
      rw [hlen, before_flat hz (le_of_lt hk'), len_flat hz hk', wtf]
    rw [hpf]
    simp only
    set v : ℝ := (l.before false k + s * l.len false k) / l.whole false with hv
    have vW : v * l.whole false = l.before false k + s * l.len false k := div_mul_cancel₀ _ (ne_of_gt hW)
    have hln := len_nonneg l false k
    have hbn := before_nonneg l false k
    have hle : l.before false k + s * l.len false k ≤ l.whole false := by
      have := before_mono l false (i := k + 1) (j := l.pieces) hk
      rw [before_succ] at this
      unfold Line.whole
      nlinarith
    have v0 : 0 ≤ v := by
      rw [hv]
      have := mul_nonneg s0 hln
      positivity
    have v1 : v ≤ 1 := (div_le_one hW).mpr hle
    obtain ⟨r1, r2, r3⟩ := sqrt_inv_sq t1
    refine ⟨_, _, rfl, r2, r3, v0, v1, ?_⟩
    intro hend
    rw [denormalised_step h hm hc ⟨r2, r3, v0, v1⟩]
    unfold Line.denormalisedAbout
    -- the point of the edge
    have hal : l.Along false (v * l.whole false) (fun a => (1 - s) * l.start k a + s * l.stop k a) :=
      ⟨k, hk, s, s0, s1, fun a => rfl, vW⟩
    have hint : l.interpolated (if v = 1 then 0 else v) false = .ok (fun a => (1 - s) * l.start k a + s * l.stop k a) := by
      by_cases hv1 : v = 1
      · rw [if_pos hv1, (interpolated_ends l false).1]
        have := along_end l false (by rw [hp]; omega)
        rw [h.closed] at this
        simp only [if_true] at this
        rw [hv1, one_mul] at hal
        rw [C130_unique l _ _ _ this hal]
      · rw [if_neg hv1]
        obtain ⟨q, g, hq, ha, _, _, hg⟩ := C130_interpolated l false v v0 v1 hW
        have : g = v := by
          rcases hg with hg | ⟨_, hg⟩
          · exact hg
          · rcases hend with e | e
            · exact absurd e hv1
            · exact absurd hg (not_le.mpr e)
        rw [this] at ha
        rw [hq, C130_unique l _ _ _ ha hal]
    rw [hint, r1]
    simp only
    have ept : pt (fun a => (1 - s) * l.start k a + s * l.stop k a) = (px, py) := by
      unfold pt
      rw [p1, p2]
      unfold pt
      ext <;> simp only <;> ring
    rw [ept]
    unfold towards
    simp only
    rw [e1, e2]
    congr 2
    · field_simp
      ring
    · field_simp
      ring

/-! ### Where the code does otherwise -/

/-- a square -/
noncomputable def plain : Line := ofList [(-1, -1), (1, -1), (1, 1), (-1, 1)]

theorem plain_convex : plain.Convex 1 := by
  have four : ∀ i < plain.n, i = 0 ∨ i = 1 ∨ i = 2 ∨ i = 3 := by
    intro i hi
    have : i < 4 := by simpa [plain, ofList] using hi
    omega
  refine ⟨rfl, by simp [plain, ofList], Or.inl rfl, ?_, ?_, ?_⟩
  · intro i hi m hm
    unfold left Line.start Line.stop
    rcases four i hi with rfl | rfl | rfl | rfl <;> rcases four m hm with rfl | rfl | rfl | rfl <;> norm_num [plain, ofList]
  · intro i hi
    unfold Line.start Line.stop
    rcases four i hi with rfl | rfl | rfl | rfl <;> norm_num [plain, ofList]
  · refine ⟨0, by simp [plain, ofList], 2, by simp [plain, ofList], ?_⟩
    unfold left Line.start Line.stop
    norm_num [plain, ofList]

theorem plain_len (i : Nat) (hi : i < 4) : plain.len false i = 2 := by
  have h4 : Real.sqrt 4 = 2 := by
    rw [show (4 : ℝ) = 2 ^ 2 by norm_num, Real.sqrt_sq (by norm_num)]
  have : i = 0 ∨ i = 1 ∨ i = 2 ∨ i = 3 := by omega
  unfold Line.len dist Line.start Line.stop
  rcases this with rfl | rfl | rfl | rfl <;> norm_num [plain, ofList, v2, h4]

theorem plain_centre : ∃ c, plain.balancedCentre none false 20 true false = .ok (c, some c) ∧ pt c = (0, 0) := by
  obtain ⟨c, h1, h2⟩ := C130_centre plain none 20 true false (Or.inr rfl) (whole_pos plain_convex false)
  refine ⟨c, h1, ?_⟩
  have hp : plain.pieces = 4 := by rw [pieces_n plain_convex]; simp [plain, ofList]
  have hW := whole_pos plain_convex false
  have z : ∀ a, a = 0 ∨ a = 1 → c a = 0 := by
    intro a ha
    have := h2 a
    rw [hp] at this
    simp only [Finset.sum_range_succ, Finset.sum_range_zero, Bool.false_eq_true, false_and, if_false] at this
    rw [plain_len 0 (by omega), plain_len 1 (by omega), plain_len 2 (by omega), plain_len 3 (by omega)] at this
    have e : c a * plain.whole false = 0 := by
      rw [this]
      unfold Line.start Line.stop
      rcases ha with rfl | rfl <;> norm_num [plain, ofList]
    exact (mul_eq_zero.mp e).resolve_right (ne_of_gt hW)
  exact Prod.ext (z 0 (Or.inl rfl)) (z 1 (Or.inr rfl))

theorem plain_pieces : plain.pieces = 4 := by rw [pieces_n plain_convex]; simp [plain, ofList]

theorem plain_first (y : ℝ) (h1 : -1 < y * 2) (h2 : y * 2 ≤ 1) : plain.firstIntersection (0, 0) (1 / 2, y) true = some (1, 1, 2 * y) := by
  rw [C132_first]
  refine ⟨by rw [plain_pieces]; omega, ?_, ⟨2, by norm_num, fun h => absurd h (by simp), ?_, ?_⟩, ⟨(1 + 2 * y) / 2, by linarith, by linarith, ?_, ?_⟩, ?_⟩
  · unfold Line.Across
    rw [parallelLines_iff]
    norm_num [divisorOf, pt, Line.start, Line.stop, plain, ofList]
  · norm_num
  · norm_num
  · norm_num [pt, Line.start, Line.stop, plain, ofList]
  · norm_num [pt, Line.start, Line.stop, plain, ofList]
  · rintro j hj ⟨q, _, ha, hon⟩
    have : j = 0 := by omega
    subst this
    obtain ⟨t, t0, -, e1, e2⟩ := ha
    obtain ⟨u, u0, u1, g1, g2⟩ := hon
    norm_num [Line.start, Line.stop, plain, ofList, pt] at e1 e2 g1 g2
    have e3 : t * y = -1 := by linarith
    have ht : t ≤ 2 := by linarith
    nlinarith

/-- C133, negation: in square mode the normalised coordinates are not those of one point only, and denormalisation does not give the point back: in a
square, two points have the same normalised coordinates. -/
theorem C133_square_violated : plain.Convex 1 ∧ plain.Within 1 (1 / 2, 1 / 4) ∧ plain.Within 1 (1 / 2, 1 / 2) ∧
    plain.normalised ⟨none, none⟩ none (1 / 2) (1 / 4) .square = .ok (3 / 4, 3 / 4) ∧
    plain.normalised ⟨none, none⟩ none (1 / 2) (1 / 2) .square = .ok (3 / 4, 3 / 4) ∧
    plain.denormalised ⟨none, none⟩ none (3 / 4) (3 / 4) .square = .ok (1 / 2, 1 / 2) := by
  obtain ⟨c, hc, hp⟩ := plain_centre
  have hm : (⟨none, none⟩ : Meta).convex = none ∨ (⟨none, none⟩ : Meta).convex = some true := Or.inl rfl
  have hw : ∀ x y : ℝ, -1 ≤ x ∧ x ≤ 1 ∧ -1 ≤ y ∧ y ≤ 1 → plain.Within 1 (x, y) := by
    intro x y ⟨a1, a2, a3, a4⟩ i hi
    have : i < 4 := by simpa [plain, ofList] using hi
    have : i = 0 ∨ i = 1 ∨ i = 2 ∨ i = 3 := by omega
    unfold side Line.start Line.stop
    rcases this with rfl | rfl | rfl | rfl <;> norm_num [plain, ofList] <;> linarith
  have hn : ∀ y : ℝ, 0 < y → y ≤ 1 / 2 → plain.normalised ⟨none, none⟩ none (1 / 2) y .square = .ok (3 / 4, 3 / 4) := by
    intro y y0 y1
    rw [normalised_step plain_convex hm hc, hp]
    unfold Line.normalisedAbout
    rw [if_neg (by norm_num), plain_first y (by linarith) (by linarith)]
    have hy : |2 * y - 0| = 2 * y := by rw [sub_zero, abs_of_pos (by linarith)]
    have hy0 : 2 * y ≠ 0 := by positivity
    simp only [squareNorm]
    rw [if_neg one_ne_zero, if_neg hy0, hy]
    congr 2
    · norm_num
    · field_simp
      ring
  refine ⟨plain_convex, hw _ _ (by norm_num), hw _ _ (by norm_num), hn _ (by norm_num) (by norm_num), hn _ (by norm_num) (by norm_num), ?_⟩
  rw [denormalised_step plain_convex hm hc (by norm_num), hp]
  unfold Line.denormalisedAbout
  have hf : plain.firstIntersection (0, 0) (3 / 4 - 0.5 + 0, 3 / 4 - 0.5 + 0) true = some (1, 1, 1) := by
    have h1 := first_scaled plain (0, 0) (1 / 2, 1 / 2) (1 / 2) (by norm_num)
    have h2 := plain_first (1 / 2) (by norm_num) (by norm_num)
    norm_num at h1 h2 ⊢
    rw [h1, h2]
  simp only
  rw [if_neg (by norm_num), hf]
  norm_num [squareBack]

theorem sloping_len (i : Nat) (hi : i < 4) : sloping.len false i = if i % 2 = 0 then 5 else 2 := by
  have h4 : Real.sqrt 4 = 2 := by
    rw [show (4 : ℝ) = 2 ^ 2 by norm_num, Real.sqrt_sq (by norm_num)]
  have h25 : Real.sqrt 25 = 5 := by
    rw [show (25 : ℝ) = 5 ^ 2 by norm_num, Real.sqrt_sq (by norm_num)]
  have : i = 0 ∨ i = 1 ∨ i = 2 ∨ i = 3 := by omega
  unfold Line.len dist Line.start Line.stop
  rcases this with rfl | rfl | rfl | rfl <;> norm_num [sloping, v2, h4, h25]

theorem sloping_plan (i : Nat) (hi : i < 4) : sloping.len true i = if i % 2 = 0 then 3 else 2 := by
  have h4 : Real.sqrt 4 = 2 := by
    rw [show (4 : ℝ) = 2 ^ 2 by norm_num, Real.sqrt_sq (by norm_num)]
  have h9 : Real.sqrt 9 = 3 := by
    rw [show (9 : ℝ) = 3 ^ 2 by norm_num, Real.sqrt_sq (by norm_num)]
  have : i = 0 ∨ i = 1 ∨ i = 2 ∨ i = 3 := by omega
  unfold Line.len dist Line.start Line.stop
  rcases this with rfl | rfl | rfl | rfl <;> norm_num [sloping, v2, h4, h9]

theorem sloping_pieces : sloping.pieces = 4 := by rw [pieces_n sloping_convex]; rfl

theorem sloping_whole : sloping.whole false = 14 ∧ sloping.whole true = 10 := by
  unfold Line.whole Line.before
  rw [sloping_pieces]
  simp only [Finset.sum_range_succ, Finset.sum_range_zero]
  rw [sloping_len 0 (by omega), sloping_len 1 (by omega), sloping_len 2 (by omega), sloping_len 3 (by omega),
    sloping_plan 0 (by omega), sloping_plan 1 (by omega), sloping_plan 2 (by omega), sloping_plan 3 (by omega)]
  norm_num

theorem sloping_centre : ∃ c, sloping.balancedCentre none false 20 true false = .ok (c, some c) ∧ pt c = (3 / 2, 1) := by
  obtain ⟨c, h1, h2⟩ := C130_centre sloping none 20 true false (Or.inr rfl) (whole_pos sloping_convex false)
  refine ⟨c, h1, ?_⟩
  have z : ∀ a, a = 0 ∨ a = 1 → c a * 14 = if a = 0 then 21 else 14 := by
    intro a ha
    have := h2 a
    rw [sloping_pieces, sloping_whole.1] at this
    simp only [Finset.sum_range_succ, Finset.sum_range_zero, Bool.false_eq_true, false_and, if_false] at this
    rw [sloping_len 0 (by omega), sloping_len 1 (by omega), sloping_len 2 (by omega), sloping_len 3 (by omega)] at this
    rw [this]
    unfold Line.start Line.stop
    rcases ha with rfl | rfl <;> norm_num [sloping]
  have z0 := z 0 (Or.inl rfl)
  have z1 := z 1 (Or.inr rfl)
  rw [if_pos rfl] at z0
  rw [if_neg (by decide)] at z1
  exact Prod.ext (show c 0 = 3 / 2 by linarith) (show c 1 = 1 by linarith)

/-- C133, negation: in perimeter mode, for a polygon which slopes, a distance along the edge in plan is given back as one along the slope: here the
point (3, 1) comes back as (3, 3/5). -/
theorem C133_slope_violated : sloping.Convex 1 ∧ sloping.Within 1 (3, 1) ∧
    sloping.normalised ⟨none, none⟩ none 3 1 .perimeter = .ok (1, 2 / 5) ∧
    sloping.denormalised ⟨none, none⟩ none 1 (2 / 5) .perimeter = .ok (3, 3 / 5) := by
  obtain ⟨c, hc, hp⟩ := sloping_centre
  have hm : (⟨none, none⟩ : Meta).convex = none ∨ (⟨none, none⟩ : Meta).convex = some true := Or.inl rfl
  have four : ∀ i < sloping.n, i = 0 ∨ i = 1 ∨ i = 2 ∨ i = 3 := by
    intro i hi
    have : i < 4 := hi
    omega
  refine ⟨sloping_convex, ?_, ?_, ?_⟩
  · intro i hi
    unfold side Line.start Line.stop
    rcases four i hi with rfl | rfl | rfl | rfl <;> norm_num [sloping]
  · rw [normalised_step sloping_convex hm hc, hp]
    have hf : sloping.firstIntersection (3 / 2, 1) (3, 1) true = some (1, 3, 1) := by
      rw [C132_first]
      refine ⟨by rw [sloping_pieces]; omega, ?_, ⟨1, by norm_num, fun h => absurd h (by simp), ?_, ?_⟩, ⟨1 / 2, by norm_num, by norm_num, ?_, ?_⟩, ?_⟩
      · unfold Line.Across
        rw [parallelLines_iff]
        norm_num [divisorOf, pt, Line.start, Line.stop, sloping]
      · norm_num
      · norm_num
      · norm_num [pt, Line.start, Line.stop, sloping]
      · norm_num [pt, Line.start, Line.stop, sloping]
      · rintro j hj ⟨q, ha, _, _⟩
        have : j = 0 := by omega
        subst this
        apply ha
        rw [parallelLines_iff]
        norm_num [divisorOf, pt, Line.start, Line.stop, sloping]
    have hl : length ![(3 : ℝ) - sloping.c 1 0, 1 - sloping.c 1 1, 0] = 1 := by
      apply length_of_sq (by norm_num)
      norm_num [sloping, v2]
    have hb : sloping.before true 1 = 3 := by
      unfold Line.before
      rw [Finset.sum_range_one, sloping_plan 0 (by omega)]
      norm_num
    have hpf : sloping.perimeterFraction 1 (3, 1) = .ok (2 / 5) := by
      unfold Line.perimeterFraction
      rw [lengthTo_of sloping true 1 (by rw [sloping_pieces]; omega), fullLength_eq, sloping_whole.2, hb]
      simp only
      rw [hl]
      norm_num
    unfold Line.normalisedAbout
    rw [if_neg (by norm_num), hf]
    simp only
    rw [hpf]
    norm_num [radial]
  · rw [denormalised_step sloping_convex hm hc (by norm_num), hp]
    obtain ⟨q, g, hq, ha, _, _, hg⟩ := C130_interpolated sloping false (2 / 5) (by norm_num) (by norm_num) (whole_pos sloping_convex false)
    have hg' : g = 2 / 5 := by
      rcases hg with hg | ⟨_, hg⟩
      · exact hg
      · norm_num at hg
    have hb : sloping.before false 1 = 5 := by
      unfold Line.before
      rw [Finset.sum_range_one, sloping_len 0 (by omega)]
      norm_num
    have hal : sloping.Along false (g * sloping.whole false) (fun a => (1 - 3 / 10) * sloping.start 1 a + 3 / 10 * sloping.stop 1 a) := by
      refine ⟨1, by rw [sloping_pieces]; omega, 3 / 10, by norm_num, by norm_num, fun a => rfl, ?_⟩
      rw [hg', sloping_whole.1, hb, sloping_len 1 (by omega)]
      norm_num
    have e := C130_unique sloping _ _ _ ha hal
    unfold Line.denormalisedAbout
    simp only
    rw [if_neg (by norm_num), hq, e]
    simp only [Real.sqrt_one]
    norm_num [towards, pt, Line.start, Line.stop, sloping]

/-- the hypotheses of the theorems are met -/
example : plain.Convex 1 ∧ (∀ i < plain.n, plain.c i 2 = 0) ∧ plain.Within 1 (1 / 2, 1 / 4) :=
  ⟨plain_convex, fun _ _ => by simp [plain, ofList, v2], C133_square_violated.2.1⟩

end Verif.Polyline
