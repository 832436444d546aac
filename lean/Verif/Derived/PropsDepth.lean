import Verif.Derived.Depth
import Mathlib.Tactic.Linarith
import Mathlib.Tactic.FieldSimp
import Mathlib.Tactic.Positivity
import Mathlib.Tactic.NormNum

/-! # C83: local depth adjustment -/

namespace Verif.Derived
open Verif.Py

noncomputable section

/-- What a decay of the shift with distance has to be: the whole shift at the centre, none from the radius outward, never growing with
distance and without a step. -/
structure Decay (radius : ℝ) (w : ℝ → ℝ) : Prop where
  centre : w 0 = 1
  outside : ∀ d, radius ≤ d → w d = 0
  falling : ∀ d e, 0 ≤ d → d ≤ e → w e ≤ w d
  unbroken : Continuous w

theorem Decay.nonneg {radius : ℝ} {w : ℝ → ℝ} (h : Decay radius w) {d : ℝ} (hd : 0 ≤ d) : 0 ≤ w d := by
  have := h.falling d (max d radius) hd (le_max_left _ _)
  rwa [h.outside _ (le_max_right _ _)] at this

theorem Decay.le_one {radius : ℝ} {w : ℝ → ℝ} (h : Decay radius w) {d : ℝ} (hd : 0 ≤ d) : w d ≤ 1 := by
  have := h.falling 0 d le_rfl hd
  rwa [h.centre] at this

/-- Either shape of decay takes the shift from its full value at the centre to nothing at the radius, without growing anywhere and
without a step. -/
theorem C83_decay (radius : ℝ) (shape : String) (hr : 0 < radius) (hs : shape = "linear" ∨ shape = "quadratic") :
    ∃ w, Decay radius w ∧ ∀ c d, decayedShift c d radius shape = .ok (w d * c) := by
  have hcont : Continuous fun d : ℝ => min (d / radius) 1 := (continuous_id.div_const _).min continuous_const
  have hmono : ∀ d e : ℝ, d ≤ e → min (d / radius) 1 ≤ min (e / radius) 1 := fun d e h =>
    min_le_min (div_le_div_of_nonneg_right h hr.le) le_rfl
  have h0 : ∀ d : ℝ, 0 ≤ d → 0 ≤ min (d / radius) 1 := fun d h => le_min (div_nonneg h hr.le) zero_le_one
  have h1 : ∀ d : ℝ, min (d / radius) 1 ≤ 1 := fun d => min_le_right _ _
  have hz : min ((0 : ℝ) / radius) 1 = 0 := by simp
  have ho : ∀ d, radius ≤ d → min (d / radius) 1 = 1 := fun d h => min_eq_right ((one_le_div hr).2 h)
  rcases hs with rfl | rfl
  · refine ⟨fun d => 1 - min (d / radius) 1, ⟨?_, ?_, ?_, ?_⟩, ?_⟩
    · simp only [hz]; norm_num
    · intro d h; simp only [ho d h]; norm_num
    · intro d e _ h; have := hmono d e h; linarith
    · exact continuous_const.sub hcont
    · intro c d
      unfold decayedShift
      rw [if_neg hr.ne']
      rfl
  · refine ⟨fun d => if 1 / 2 ≤ min (d / radius) 1 then 2 * (1 - min (d / radius) 1) * (1 - min (d / radius) 1)
        else 1 - 2 * min (d / radius) 1 * min (d / radius) 1, ⟨?_, ?_, ?_, ?_⟩, ?_⟩
    · simp only [hz]; norm_num
    · intro d h; simp only [ho d h]; norm_num
    · intro d e hd h
      have a := hmono d e h
      have b := h0 d hd
      have c := h1 e
      generalize min (d / radius) 1 = u at *
      generalize min (e / radius) 1 = v at *
      split <;> split <;> nlinarith
    · refine Continuous.if_le ?_ ?_ continuous_const hcont ?_
      · exact (continuous_const.mul (continuous_const.sub hcont)).mul (continuous_const.sub hcont)
      · exact continuous_const.sub ((continuous_const.mul hcont).mul hcont)
      · intro x hx
        rw [← hx]; norm_num
    · intro c d
      unfold decayedShift
      rw [if_neg hr.ne', if_neg (by decide), if_pos rfl]
      dsimp only
      split
      · rfl
      · exact congrArg Except.ok (mul_comm _ _)

/-- the distance of a point from the centre, in plan -/
def away (cx cy : ℝ) (p : Pt) : ℝ := Real.sqrt ((p.x - cx) ^ 2 + (p.y - cy) ^ 2)

theorem pillarShift_ok (cx cy radius c : ℝ) (shape : String) (hr : 0 < radius) (w : ℝ → ℝ)
    (hw : ∀ c d, decayedShift c d radius shape = .ok (w d * c)) (p : Pt) :
    pillarShift cx cy radius c shape p = .ok (if away cx cy p ≤ radius then some (w (away cx cy p) * c) else none) := by
  have e : (cx - p.x) * (cx - p.x) + (cy - p.y) * (cy - p.y) = (p.x - cx) ^ 2 + (p.y - cy) ^ 2 := by ring
  have hiff : (p.x - cx) ^ 2 + (p.y - cy) ^ 2 > radius * radius ↔ ¬ away cx cy p ≤ radius := by
    unfold away
    rw [Real.sqrt_le_left hr.le, gt_iff_lt, not_le, sq radius]
  unfold pillarShift
  dsimp only
  rw [e]
  by_cases h : away cx cy p ≤ radius
  · rw [if_neg (fun h' => hiff.1 h' h), if_pos h, hw]
    rfl
  · rw [if_pos (hiff.2 h), if_neg h]

theorem adjustLoop_ok (ref : Nat) (cx cy radius c : ℝ) (shape : String) (hr : 0 < radius) (w : ℝ → ℝ) (hd : Decay radius w)
    (hw : ∀ c d, decayedShift c d radius shape = .ok (w d * c)) :
    ∀ (ps : List Nat) (pts : Nat → Nat → Pt) (n : Nat), ps.Nodup →
      ∃ pts' m, adjustLoop ref cx cy radius c shape ps pts n = .ok (pts', m) ∧
        (n ≤ m ∧ (m = n ↔ ∀ p ∈ ps, ¬ away cx cy (pts ref p) ≤ radius)) ∧
        ∀ k p, pts' k p = if p ∈ ps then ⟨(pts k p).x, (pts k p).y, (pts k p).z + w (away cx cy (pts ref p)) * c⟩ else pts k p := by
  intro ps
  induction ps with
  | nil => intro pts n _; exact ⟨pts, n, rfl, ⟨le_rfl, by simp⟩, by simp⟩
  | cons q ps ih =>
    intro pts n hnd
    rw [List.nodup_cons] at hnd
    rw [adjustLoop, pillarShift_ok cx cy radius c shape hr w hw]
    by_cases h : away cx cy (pts ref q) ≤ radius
    · rw [if_pos h]
      dsimp only
      obtain ⟨pts', m, e, ⟨h1, h2⟩, h3⟩ := ih (fun k p => if p = q then { pts k p with z := (pts k p).z + w (away cx cy (pts ref q)) * c } else pts k p) (n + 1) hnd.2
      refine ⟨pts', m, e, ⟨by omega, ?_⟩, ?_⟩
      · constructor
        · intro hm; omega
        · intro hall; exact absurd h (hall q List.mem_cons_self)
      · intro k p
        rw [h3 k p]
        by_cases hp : p = q
        · subst hp
          rw [if_neg hnd.1, if_pos List.mem_cons_self, if_pos rfl]
        · simp only [hp, if_false, List.mem_cons, false_or]
    · rw [if_neg h]
      dsimp only
      obtain ⟨pts', m, e, ⟨h1, h2⟩, h3⟩ := ih pts n hnd.2
      refine ⟨pts', m, e, ⟨h1, ?_⟩, ?_⟩
      · rw [h2]
        constructor
        · intro hall p hp
          rcases List.mem_cons.1 hp with rfl | hp
          · exact h
          · exact hall p hp
        · intro hall p hp; exact hall p (List.mem_cons_of_mem _ hp)
      · intro k p
        rw [h3 k p]
        by_cases hp : p = q
        · subst hp
          rw [if_neg hnd.1, if_pos List.mem_cons_self, hd.outside _ (le_of_lt (not_le.1 h))]
          simp
        · simp only [List.mem_cons, hp, false_or]

/-- Every pillar is moved as a whole and only vertically, by the shift asked for times a decay which depends only on its distance in
plan from the centre, taken at the reference interface: downward for a positive shift, whichever way z runs; the centre is in the
coordinates of the grid, or is moved by the offsets of its coordinate reference system.  Nothing is made if no pillar is in reach. -/
theorem C83_adjusted_partial (crs : DCrs) (nPoints nPillars : Nat) (pts : Nat → Nat → Pt) (cx cy radius c : ℝ) (useLocal : Bool)
    (shape : String) (ref : Nat) (hr : 0 < radius) (hs : shape = "linear" ∨ shape = "quadratic") (href : ref < nPoints)
    (hrot : useLocal = false → crs.rotation = 0) :
    ∃ w, Decay radius w ∧ ∃ r,
      localDepthAdjustment crs nPoints nPillars pts cx cy radius c useLocal shape ref = .ok r ∧
      let lx := if useLocal then cx else cx - crs.xOffset
      let ly := if useLocal then cy else cy - crs.yOffset
      (r = none ↔ ∀ p < nPillars, radius < away lx ly (pts ref p)) ∧
      ∀ pts', r = some pts' → ∀ k, ∀ p < nPillars,
        (pts' k p).x = (pts k p).x ∧ (pts' k p).y = (pts k p).y ∧
        (pts' k p).z - (pts k p).z = w (away lx ly (pts ref p)) * (if crs.zIncDown then c else -c) := by
  obtain ⟨w, hd, hw⟩ := C83_decay radius shape hr hs
  refine ⟨w, hd, ?_⟩
  obtain ⟨pts', m, e, ⟨-, h2⟩, h3⟩ := adjustLoop_ok ref (if useLocal then cx else cx - crs.xOffset) (if useLocal then cy else cy - crs.yOffset)
    radius (if crs.zIncDown then c else -c) shape hr w hd hw (List.range nPillars) pts 0 List.nodup_range
  have hn : ¬ ((!useLocal && decide (crs.rotation > 1 / 1000)) = true) := by
    cases useLocal
    · simp [hrot rfl]
    · simp
  refine ⟨if m = 0 then none else some pts', ?_, ?_, ?_⟩
  · unfold localDepthAdjustment
    rw [if_neg hn]
    dsimp only
    rw [if_pos href, e]
    cases m <;> rfl
  · have : (if m = 0 then none else some pts') = none ↔ m = 0 := by
      by_cases h : m = 0
      · simp only [h, if_true]
      · simp only [h, if_false, reduceCtorEq]
    rw [this, h2]
    simp only [List.mem_range, not_le]
  · intro q hq k p hp
    have : pts' = q := by
      split at hq
      · cases hq
      · exact Option.some.inj hq
    rw [← this, h3, if_pos (List.mem_range.2 hp)]
    refine ⟨rfl, rfl, ?_⟩
    dsimp only
    ring

/-- the hypotheses of `C83_adjusted_partial` are met, with a pillar in reach -/
example : ∃ (pts : Nat → Nat → Pt), away 1 2 (pts 0 0) ≤ 5 := ⟨fun _ _ => ⟨1, 2, 3⟩, by unfold away; norm_num⟩

/-- Layers keep their thickness: what is between two points of one pillar is not changed. -/
theorem C83_thickness_partial (crs : DCrs) (nPoints nPillars : Nat) (pts pts' : Nat → Nat → Pt) (cx cy radius c : ℝ) (useLocal : Bool)
    (shape : String) (ref : Nat) (hr : 0 < radius) (hs : shape = "linear" ∨ shape = "quadratic") (href : ref < nPoints)
    (hrot : useLocal = false → crs.rotation = 0)
    (h : localDepthAdjustment crs nPoints nPillars pts cx cy radius c useLocal shape ref = .ok (some pts')) :
    ∀ k l, ∀ p < nPillars, (pts' k p).z - (pts' l p).z = (pts k p).z - (pts l p).z := by
  obtain ⟨w, -, r, e, -, h2⟩ := C83_adjusted_partial crs nPoints nPillars pts cx cy radius c useLocal shape ref hr hs href hrot
  rw [h] at e
  intro k l p hp
  have a := (h2 pts' (Except.ok.inj e).symm k p hp).2.2
  have b := (h2 pts' (Except.ok.inj e).symm l p hp).2.2
  linarith

/-- The centre in global coordinates cannot be found by offsets alone where the coordinate reference system is rotated, and nothing is
made if the rotation is positive. -/
theorem C83_rotated_refused (crs : DCrs) (nPoints nPillars : Nat) (pts : Nat → Nat → Pt) (cx cy radius c : ℝ) (shape : String) (ref : Nat)
    (h : 1 / 1000 < crs.rotation) :
    localDepthAdjustment crs nPoints nPillars pts cx cy radius c false shape ref = .ok none := by
  unfold localDepthAdjustment
  rw [if_pos (by simpa using h)]

/-- A rotation the other way is not noticed: the grid is adjusted about a centre found without it. -/
theorem C83_negative_rotation_violated :
    ∃ (pts : Nat → Nat → Pt), (localDepthAdjustment ⟨1, 0, 0, true⟩ 1 1 pts 0 0 1 1 false "linear" 0).toOption = some none ∧
      ∃ pts', (localDepthAdjustment ⟨-1, 0, 0, true⟩ 1 1 pts 0 0 1 1 false "linear" 0).toOption = some (some pts') ∧
        pts' 0 0 = ⟨0, 0, 1⟩ := by
  refine ⟨fun _ _ => ⟨0, 0, 0⟩, ?_, ?_⟩
  · rw [C83_rotated_refused _ _ _ _ _ _ _ _ _ _ (by norm_num)]; rfl
  · unfold localDepthAdjustment
    rw [if_neg (by norm_num)]
    dsimp only
    rw [if_pos (by norm_num)]
    simp [List.range_succ, adjustLoop, pillarShift, decayedShift, Except.toOption]
    rw [if_neg (by norm_num)]
    exact ⟨_, rfl, rfl⟩

/-- A radius which is not positive is not refused: with a negative one the shift is larger away from the centre than at it. -/
theorem C83_negative_radius_violated : ∃ a b, decayedShift 1 0 (-2) "linear" = .ok a ∧ decayedShift 1 1 (-2) "linear" = .ok b ∧ a < b := by
  refine ⟨1, 3 / 2, ?_, ?_, by norm_num⟩
  · unfold decayedShift; norm_num
  · unfold decayedShift; norm_num

end

end Verif.Derived
