import Verif.Transmit.Juxta
import Mathlib.Analysis.SpecialFunctions.Integrals.Basic
import Mathlib.Tactic.FieldSimp
import Mathlib.Tactic.LinearCombination

/-!
# Specification of the area of overlap of two faces, and integrals of positive parts
-/

namespace Verif.Transmit
open MeasureTheory intervalIntegral

noncomputable section

/-- value part of the way from one pillar to the other -/
def between (x y u : ℝ) : ℝ := x + (y - x) * u

/-- the length common to the intervals from `mt` to `mb` and from `pt` to `pb` -/
def common (mt mb pt pb : ℝ) : ℝ := max 0 (min mb pb - max mt pt)

/-- area of overlap of two faces between two parallel pillars a unit apart, the tops and bases being straight -/
def overlapArea (amt amb apt apb bmt bmb bpt bpb : ℝ) : ℝ :=
  ∫ u in (0 : ℝ)..1, common (between amt bmt u) (between amb bmb u) (between apt bpt u) (between apb bpb u)

/-- area of a face between two parallel pillars a unit apart -/
def faceArea (at' ab bt bb : ℝ) : ℝ := ∫ u in (0 : ℝ)..1, (between ab bb u - between at' bt u)

/-- area below zero cut off from a strip -/
def part (x y : ℝ) : ℝ := ∫ u in (0 : ℝ)..1, max 0 (between x y u)

theorem integral_between (x y a b : ℝ) : ∫ u in a..b, between x y u = x * (b - a) + (y - x) * ((b ^ 2 - a ^ 2) / 2) := by
  unfold between
  rw [intervalIntegral.integral_add (by apply Continuous.intervalIntegrable; fun_prop) (by apply Continuous.intervalIntegrable; fun_prop),
    intervalIntegral.integral_const, intervalIntegral.integral_const_mul, integral_id]
  simp only [smul_eq_mul]; ring

theorem continuous_part (x y : ℝ) : Continuous fun u => max 0 (between x y u) := by
  unfold between; fun_prop

theorem part_pos {x y : ℝ} (hx : 0 ≤ x) (hy : 0 ≤ y) : part x y = (x + y) / 2 := by
  unfold part
  rw [intervalIntegral.integral_congr (g := fun u => between x y u)]
  · rw [integral_between]; ring
  · intro u hu
    rw [Set.uIcc_of_le zero_le_one] at hu
    obtain ⟨h0, h1⟩ := hu
    apply max_eq_right
    unfold between
    nlinarith

theorem part_neg {x y : ℝ} (hx : x ≤ 0) (hy : y ≤ 0) : part x y = 0 := by
  unfold part
  rw [intervalIntegral.integral_congr (g := fun _ => 0)]
  · simp
  · intro u hu
    rw [Set.uIcc_of_le zero_le_one] at hu
    obtain ⟨h0, h1⟩ := hu
    apply max_eq_left
    unfold between
    nlinarith

theorem part_dec {x y : ℝ} (hx : 0 ≤ x) (hy : y ≤ 0) (h : 0 < x - y) : part x y = x ^ 2 / (2 * (x - y)) := by
  unfold part
  have h0 : 0 ≤ x / (x - y) := div_nonneg hx h.le
  have h1 : x / (x - y) ≤ 1 := by rw [div_le_one h]; linarith
  rw [← intervalIntegral.integral_add_adjacent_intervals (b := x / (x - y)) ((continuous_part x y).intervalIntegrable ..)
    ((continuous_part x y).intervalIntegrable ..),
    intervalIntegral.integral_congr (a := 0) (g := fun u => between x y u), intervalIntegral.integral_congr (b := 1) (g := fun _ => 0)]
  · rw [integral_between]; simp only [intervalIntegral.integral_zero]
    field_simp; ring
  · intro u hu
    rw [Set.uIcc_of_le h1] at hu
    obtain ⟨h2, -⟩ := hu
    rw [div_le_iff₀ h] at h2
    apply max_eq_left
    unfold between
    nlinarith
  · intro u hu
    rw [Set.uIcc_of_le h0] at hu
    obtain ⟨-, h2⟩ := hu
    rw [le_div_iff₀ h] at h2
    apply max_eq_right
    unfold between
    nlinarith

theorem part_swap (x y : ℝ) : part x y = part y x := by
  unfold part
  have := intervalIntegral.integral_comp_sub_left (a := 0) (b := 1) (fun u => max 0 (between x y u)) 1
  simp only [sub_self, sub_zero] at this
  rw [← this]
  refine intervalIntegral.integral_congr fun u _ => ?_
  unfold between
  congr 1; ring

theorem part_inc {x y : ℝ} (hx : x ≤ 0) (hy : 0 ≤ y) (h : 0 < y - x) : part x y = y ^ 2 / (2 * (y - x)) := by
  rw [part_swap, part_dec hy hx h]

theorem faceArea_eq (at' ab bt bb : ℝ) : faceArea at' ab bt bb = ((ab - at') + (bb - bt)) / 2 := by
  unfold faceArea
  have e : (fun u => between ab bb u - between at' bt u) = fun u => between (ab - at') (bb - bt) u := by
    funext u; unfold between; ring
  rw [e, integral_between]; ring

theorem common_eq {mt mb pt pb : ℝ} (hm : mt ≤ mb) (hp : pt ≤ pb) :
    common mt mb pt pb = max 0 (pb - mt) - max 0 (pb - mb) - max 0 (pt - mt) + max 0 (pt - mb) := by
  unfold common
  rcases le_total pb mt with h1 | h1 <;> rcases le_total pb mb with h2 | h2 <;> rcases le_total pt mt with h3 | h3 <;>
    rcases le_total pt mb with h4 | h4 <;>
    simp only [min_eq_left, min_eq_right, max_eq_left, max_eq_right, h1, h2, h3, h4, sub_nonneg, sub_nonpos] <;>
    first
    | linarith
    | (rw [max_eq_left (by linarith)]; linarith)
    | (rw [max_eq_right (by linarith)]; linarith)

theorem between_le {x y x' y' u : ℝ} (h0 : 0 ≤ u) (h1 : u ≤ 1) (hx : x ≤ x') (hy : y ≤ y') : between x y u ≤ between x' y' u := by
  unfold between; nlinarith

theorem between_sub (x y x' y' u : ℝ) : between x y u - between x' y' u = between (x - x') (y - y') u := by
  unfold between; ring

/-- the overlap by the parts of the p side above the base and above the top of the m side -/
theorem overlapArea_eq {amt amb apt apb bmt bmb bpt bpb : ℝ} (ham : amt ≤ amb) (hbm : bmt ≤ bmb) (hap : apt ≤ apb) (hbp : bpt ≤ bpb) :
    overlapArea amt amb apt apb bmt bmb bpt bpb =
      part (apb - amt) (bpb - bmt) - part (apb - amb) (bpb - bmb) - part (apt - amt) (bpt - bmt) + part (apt - amb) (bpt - bmb) := by
  unfold overlapArea
  rw [intervalIntegral.integral_congr (g := fun u => max 0 (between (apb - amt) (bpb - bmt) u) - max 0 (between (apb - amb) (bpb - bmb) u) -
    max 0 (between (apt - amt) (bpt - bmt) u) + max 0 (between (apt - amb) (bpt - bmb) u))]
  · have hi : ∀ x y, IntervalIntegrable (fun u => max 0 (between x y u)) volume 0 1 := fun x y => (continuous_part x y).intervalIntegrable ..
    rw [intervalIntegral.integral_add (((hi _ _).sub (hi _ _)).sub (hi _ _)) (hi _ _),
      intervalIntegral.integral_sub ((hi _ _).sub (hi _ _)) (hi _ _), intervalIntegral.integral_sub (hi _ _) (hi _ _)]
    rfl
  · intro u hu
    rw [Set.uIcc_of_le zero_le_one] at hu
    obtain ⟨h0, h1⟩ := hu
    dsimp only
    rw [common_eq (between_le h0 h1 ham hbm) (between_le h0 h1 hap hbp)]
    simp only [between_sub]

theorem common_nonneg (mt mb pt pb : ℝ) : 0 ≤ common mt mb pt pb := le_max_left _ _

theorem continuous_common (amt amb apt apb bmt bmb bpt bpb : ℝ) :
    Continuous fun u => common (between amt bmt u) (between amb bmb u) (between apt bpt u) (between apb bpb u) := by
  unfold common between; fun_prop

theorem overlapArea_nonneg (amt amb apt apb bmt bmb bpt bpb : ℝ) : 0 ≤ overlapArea amt amb apt apb bmt bmb bpt bpb := by
  unfold overlapArea
  exact intervalIntegral.integral_nonneg zero_le_one fun u _ => common_nonneg _ _ _ _

theorem overlapArea_le {amt amb bmt bmb : ℝ} (ham : amt ≤ amb) (hbm : bmt ≤ bmb) (apt apb bpt bpb : ℝ) :
    overlapArea amt amb apt apb bmt bmb bpt bpb ≤ faceArea amt amb bmt bmb := by
  unfold overlapArea faceArea
  refine intervalIntegral.integral_mono_on zero_le_one ((continuous_common ..).intervalIntegrable ..)
    (by apply Continuous.intervalIntegrable; unfold between; fun_prop) ?_
  rintro u ⟨h0, h1⟩
  unfold common
  have := between_le h0 h1 ham hbm
  refine max_le (by linarith) ?_
  have := min_le_left (between amb bmb u) (between apb bpb u)
  have := le_max_left (between amt bmt u) (between apt bpt u)
  linarith

theorem common_swap (mt mb pt pb : ℝ) : common mt mb pt pb = common pt pb mt mb := by
  unfold common; rw [min_comm, max_comm mt]

/-- the area does not depend on which side is taken first -/
theorem overlapArea_swap (amt amb apt apb bmt bmb bpt bpb : ℝ) :
    overlapArea amt amb apt apb bmt bmb bpt bpb = overlapArea apt apb amt amb bpt bpb bmt bmb := by
  unfold overlapArea
  refine intervalIntegral.integral_congr fun u _ => ?_
  exact common_swap _ _ _ _

/-- nor on which pillar is -/
theorem overlapArea_mirror {amt amb apt apb bmt bmb bpt bpb : ℝ} (ham : amt ≤ amb) (hbm : bmt ≤ bmb) (hap : apt ≤ apb) (hbp : bpt ≤ bpb) :
    overlapArea amt amb apt apb bmt bmb bpt bpb = overlapArea bmt bmb bpt bpb amt amb apt apb := by
  rw [overlapArea_eq ham hbm hap hbp, overlapArea_eq hbm ham hbp hap]
  rw [part_swap (apb - amt), part_swap (apb - amb), part_swap (apt - amt), part_swap (apt - amb)]

end

end Verif.Transmit
