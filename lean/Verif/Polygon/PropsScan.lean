import Verif.Polygon.Props
import Mathlib.Data.Rat.Floor

/-! # C60: scanning rows of pixels against a polygon -/

namespace Verif.Polygon

variable {K : Type} [Field K] [LinearOrder K] [IsStrictOrderedRing K] [FloorRing K]

instance (y : K) (e : Pt K × Pt K) : Decidable (Straddles y e) := by unfold Straddles; infer_instance

omit [IsStrictOrderedRing K] [FloorRing K] in
theorem skip_iff (y : K) (e : Pt K × Pt K) :
    ((e.1.y > y ∧ e.2.y > y) ∨ (e.1.y ≤ y ∧ e.2.y ≤ y)) ↔ ¬ Straddles y e := by
  unfold Straddles
  rcases le_or_gt e.1.y y with h1 | h1 <;> rcases le_or_gt e.2.y y with h2 | h2 <;>
    simp [h1, h2, not_lt.2, not_le.2]

omit [IsStrictOrderedRing K] [FloorRing K] in
theorem scanCuts_eq (y : K) (l : List (Pt K × Pt K)) (ix : List K) (h : ix.length < 2) :
    scanCuts y l ix = (ix ++ (l.filter (fun e => decide (Straddles y e))).map (fun e => xAt y e.1 e.2)).take 2 := by
  induction l generalizing ix with
  | nil => simp [scanCuts, List.take_of_length_le (show ix.length ≤ 2 by omega)]
  | cons e l ih =>
    rw [scanCuts]
    by_cases hs : Straddles y e
    · rw [if_neg (fun h' => (skip_iff y e).1 h' hs), List.filter_cons_of_pos (by simpa using hs), List.map_cons]
      dsimp only
      split
      · rename_i hl
        rw [show ix ++ xAt y e.1 e.2 :: (l.filter (fun e => decide (Straddles y e))).map (fun e => xAt y e.1 e.2) =
          (ix ++ [xAt y e.1 e.2]) ++ (l.filter (fun e => decide (Straddles y e))).map (fun e => xAt y e.1 e.2) by simp,
          ← hl, List.take_left]
      · rename_i hl
        rw [ih _ (by simp at hl ⊢; omega)]
        simp
    · rw [if_pos ((skip_iff y e).2 hs), ih _ h, List.filter_cons_of_neg (by simpa using hs)]

omit [FloorRing K] in
/-- what the edge does to the count of vertices above a level -/
theorem even_straddles (y : K) (poly : List (Pt K)) :
    ((edges poly).countP (fun e => decide (Straddles y e))) % 2 = 0 := by
  let f : Pt K → Int := fun v => if y < v.y then 1 else 0
  have hpar : ∀ l : List (Pt K × Pt K),
      ((l.map fun e => f e.2 - f e.1).sum) % 2 = ((l.countP (fun e => decide (Straddles y e)) : Nat) : Int) % 2 := by
    intro l
    induction l with
    | nil => rfl
    | cons e l ih =>
      rw [List.map_cons, List.sum_cons, List.countP_cons]
      have hs : (if decide (Straddles y e) = true then 1 else 0) = if (y < e.1.y ↔ y < e.2.y) then 0 else 1 := by
        by_cases h1 : y < e.1.y <;> by_cases h2 : y < e.2.y <;> simp [Straddles, h1, h2]
      rw [hs]
      have hf : f e.2 - f e.1 = (if y < e.2.y then 1 else 0) - (if y < e.1.y then 1 else 0) := rfl
      rw [hf]
      generalize (l.map fun e => f e.2 - f e.1).sum = s at *
      by_cases h1 : y < e.1.y <;> by_cases h2 : y < e.2.y <;> simp [h1, h2] <;> omega
  have htel : ∀ (u w : Pt K) (l : List (Pt K)),
      ((edgesFrom u (l ++ [w])).map fun e => f e.2 - f e.1).sum = f w - f u := by
    intro u w l
    induction l generalizing u with
    | nil => simp [edgesFrom]
    | cons a l ih =>
      simp only [List.cons_append, edgesFrom, List.map_cons, List.sum_cons, ih]
      omega
  cases poly with
  | nil => rfl
  | cons v l =>
    have h1 := hpar (edges (v :: l))
    rw [((edges_cons v l).map _).sum_eq, htel v v l] at h1
    omega

omit [FloorRing K] in
theorem cnSum_filter (p : Pt K) (l : List (Pt K × Pt K)) :
    cnSum p l = (l.filter (fun e => decide (Straddles p.y e))).countP (fun e => decide (p.x < xAt p.y e.1 e.2)) := by
  induction l with
  | nil => rfl
  | cons e l ih =>
    rw [cnSum_cons, ih]
    by_cases hs : Straddles p.y e
    · rw [List.filter_cons_of_pos (by simpa using hs), List.countP_cons]
      rcases (straddles_iff p.y e).1 hs with ⟨h1, h2⟩ | ⟨h1, h2⟩
      · rw [show cnInc p e = _ from cnInc_up p e.1 e.2 h1 h2]
        simp only [lt_xAt_up p e.1 e.2 h1 h2, decide_eq_true_eq]
        omega
      · rw [show cnInc p e = _ from cnInc_dn p e.1 e.2 h1 h2]
        simp only [lt_xAt_dn p e.1 e.2 h1 h2, decide_eq_true_eq]
        omega
    · rw [List.filter_cons_of_neg (by simpa using hs)]
      have : cnInc p e = 0 := cnInc_level p e.1 e.2 (by unfold Straddles at hs; exact not_not.1 hs)
      omega

theorem slice_iff (ox dx x0 x1 : K) (hdx : 0 < dx) (h0 : ox ≤ x0) (h1 : ox ≤ x1) (ncol col : Nat) (hc : col < ncol) :
    sliceHas ncol ⌈(x0 - ox) / dx⌉ (truncI ((x1 - ox) / dx) + 1) col = true ↔
      x0 ≤ ox + dx * col ∧ ox + dx * col ≤ x1 := by
  have n0 : 0 ≤ (x0 - ox) / dx := div_nonneg (by linarith) hdx.le
  have n1 : 0 ≤ (x1 - ox) / dx := div_nonneg (by linarith) hdx.le
  have e0 : x0 ≤ ox + dx * col ↔ ⌈(x0 - ox) / dx⌉ ≤ (col : Int) := by
    rw [Int.ceil_le, div_le_iff₀ hdx]
    push_cast
    constructor <;> intro h <;> linarith
  have e1 : ox + dx * col ≤ x1 ↔ (col : Int) ≤ ⌊(x1 - ox) / dx⌋ := by
    rw [Int.le_floor, le_div_iff₀ hdx]
    push_cast
    constructor <;> intro h <;> linarith
  have c0 : 0 ≤ ⌈(x0 - ox) / dx⌉ := Int.ceil_nonneg n0
  have c1 : 0 ≤ ⌊(x1 - ox) / dx⌋ := Int.floor_nonneg.2 n1
  rw [e0, e1, truncI, if_pos n1]
  unfold sliceHas
  generalize ⌈(x0 - ox) / dx⌉ = a at *
  generalize ⌊(x1 - ox) / dx⌋ = b at *
  simp only [decide_eq_true_eq, not_lt.2 c0, if_false, show ¬ (b + 1 < 0) by omega]
  split <;> split <;> omega

/-- one element of the mask, for a row met by at most two edges, neither of them to the left of the first pixel -/
theorem scanAt_eq (ox oy dx dy : K) (hdx : 0 < dx) (ncol : Nat) (poly : List (Pt K)) (row col : Nat) (hc : col < ncol)
    (htwo : ((edges poly).filter (fun e => decide (Straddles (oy + dy * row) e))).length ≤ 2)
    (hleft : ∀ e ∈ edges poly, Straddles (oy + dy * row) e → ox ≤ xAt (oy + dy * row) e.1 e.2)
    (hon : ∀ e ∈ edges poly, Straddles (oy + dy * row) e → ox + dx * col ≠ xAt (oy + dy * row) e.1 e.2) :
    scanAt ox oy ncol dx dy poly row col = pipCn ⟨ox + dx * col, oy + dy * row⟩ poly := by
  rw [pipCn_eq, cnSum_filter]
  unfold scanAt
  dsimp only
  rw [scanCuts_eq _ _ _ (by simp), List.nil_append]
  have hev := even_straddles (oy + dy * row) poly
  rw [List.countP_eq_length_filter] at hev
  have hmem : ∀ e ∈ (edges poly).filter (fun e => decide (Straddles (oy + dy * row) e)),
      ox ≤ xAt (oy + dy * row) e.1 e.2 ∧ ox + dx * col ≠ xAt (oy + dy * row) e.1 e.2 := by
    intro e he
    rw [List.mem_filter, decide_eq_true_eq] at he
    exact ⟨hleft e he.1 he.2, hon e he.1 he.2⟩
  generalize (edges poly).filter (fun e => decide (Straddles (oy + dy * row) e)) = fl at *
  match fl, htwo, hev with
  | [], _, _ => rfl
  | [e0], _, hev => simp at hev
  | [e0, e1], _, _ =>
    have m0 := hmem e0 (by simp)
    have m1 := hmem e1 (by simp)
    simp only [List.map_cons, List.map_nil, List.take_succ_cons, List.take_zero, List.countP_cons, List.countP_nil]
    generalize xAt (oy + dy * row) e0.1 e0.2 = x0 at *
    generalize xAt (oy + dy * row) e1.1 e1.2 = x1 at *
    generalize hx : ox + dx * (col : K) = x at *
    rw [Bool.eq_iff_iff]
    by_cases hlt : x1 < x0
    · simp only [hlt, if_true]
      rw [slice_iff ox dx x1 x0 hdx m1.1 m0.1 ncol col hc, hx, beq_iff_eq]
      rcases lt_trichotomy x x0 with a | a | a
      · rcases lt_trichotomy x x1 with b | b | b
        · simp [a, b]
        · exact absurd b m1.2
        · simp [a, a.le, b.le, not_lt.2 b.le]
      · exact absurd a m0.2
      · have b : x1 < x := hlt.trans a
        simp [not_lt.2 a.le, not_lt.2 b.le, a]
    · simp only [hlt, if_false]
      rw [slice_iff ox dx x0 x1 hdx m0.1 m1.1 ncol col hc, hx, beq_iff_eq]
      rcases lt_trichotomy x x1 with a | a | a
      · rcases lt_trichotomy x x0 with b | b | b
        · simp [a, b]
        · exact absurd b m0.2
        · simp [a, a.le, b.le, not_lt.2 b.le]
      · exact absurd a m1.2
      · have b : x0 < x := lt_of_le_of_lt (not_lt.1 hlt) a
        simp [not_lt.2 a.le, not_lt.2 b.le, a]
  | _ :: _ :: _ :: _, htwo, _ => simp at htwo

/-- For a row of pixels at a level met by at most two edges of the polygon, neither of them meeting it to the left of
the first pixel, a pixel of the row is set exactly when it is between the places where the edges meet the row; so it is
set exactly when it is inside the polygon by crossing number, unless it is exactly on an edge.
Full statement wanted: the same wherever the polygon lies relative to the pixels; see `C60_scan_violated`. -/
theorem C60_scan_partial (ox oy dx dy : K) (hdx : 0 < dx) (ncol nrow : Nat) (poly : List (Pt K)) (row col : Nat)
    (hr : row < nrow) (hc : col < ncol)
    (htwo : ((edges poly).filter (fun e => decide (Straddles (oy + dy * row) e))).length ≤ 2)
    (hleft : ∀ e ∈ edges poly, Straddles (oy + dy * row) e → ox ≤ xAt (oy + dy * row) e.1 e.2)
    (hon : ∀ e ∈ edges poly, Straddles (oy + dy * row) e → ox + dx * col ≠ xAt (oy + dy * row) e.1 e.2) :
    ((scan ox oy ncol nrow dx dy poly)[row]?.bind (·[col]?)) =
      some (pipCn ⟨ox + dx * col, oy + dy * row⟩ poly) := by
  have hgoal := scanAt_eq ox oy dx dy hdx ncol poly row col hc htwo hleft hon
  simp [scan, hr, hc, hgoal]

/-- A polygon lying wholly to the left of the pixels, but by less than the size of a pixel, still has a pixel set in it; and a
polygon reaching to the left of the pixels by more than that has no pixels set although some are inside it. -/
theorem C60_scan_violated :
    (scan (0 : ℚ) 0 3 1 1 1 [⟨-1 / 2, -1⟩, ⟨-1 / 4, -1⟩, ⟨-1 / 4, 1⟩, ⟨-1 / 2, 1⟩] = [[true, false, false]] ∧
      pipCn (⟨0, 0⟩ : Pt ℚ) [⟨-1 / 2, -1⟩, ⟨-1 / 4, -1⟩, ⟨-1 / 4, 1⟩, ⟨-1 / 2, 1⟩] = false) ∧
    (scan (0 : ℚ) 0 10 1 1 1 [⟨-2, -1⟩, ⟨3, -1⟩, ⟨3, 1⟩, ⟨-2, 1⟩] = [List.replicate 10 false] ∧
      pipCn (⟨1, 0⟩ : Pt ℚ) [⟨-2, -1⟩, ⟨3, -1⟩, ⟨3, 1⟩, ⟨-2, 1⟩] = true) := by
  decide +kernel

/-- the hypotheses are met: a kite and a row of five pixels -/
example : (scan (0 : ℚ) 0 5 1 1 1 [⟨1 / 2, 0⟩, ⟨2, -3⟩, ⟨7 / 2, 0⟩, ⟨2, 1⟩]) = [[false, true, true, true, false]] := by
  decide +kernel

example : ((edges [(⟨1 / 2, 0⟩ : Pt ℚ), ⟨2, -3⟩, ⟨7 / 2, 0⟩, ⟨2, 1⟩]).filter
    (fun e => decide (Straddles (0 : ℚ) e))).length = 2 := by
  decide +kernel

end Verif.Polygon
