import Verif.Wells.Survey
import Mathlib.Analysis.Calculus.Deriv.Pi
import Mathlib.Analysis.SpecialFunctions.Trigonometric.Deriv
import Mathlib.Analysis.SpecialFunctions.Trigonometric.Bounds
import Mathlib.Analysis.Real.Pi.Bounds
import Mathlib.Tactic.Linarith
import Mathlib.Tactic.FieldSimp
import Mathlib.Tactic.LinearCombination
import Mathlib.Tactic.FinCases

/-! # C70, C71: trajectories from deviation surveys; inclinations of trajectories -/

namespace Verif.Wells.Survey
open Verif.Py Real

/-! ## Specification -/

/-- the scalar product -/
def dot (a b : V3) : ℝ := a 0 * b 0 + a 1 * b 1 + a 2 * b 2

/-- the direction with a compass bearing `az` from the y axis towards the x axis, at an angle `inc` from the z axis, in radians -/
noncomputable def heading (az inc : ℝ) : V3 := ![sin inc * sin az, sin inc * cos az, cos inc]

/-- the heading at a station of a survey whose angles are in degrees, or else in radians -/
noncomputable def stationHeading (deg : Bool) (s : Station) : V3 :=
  if deg then heading (s.az * π / 180) (s.inc * π / 180) else heading s.az s.inc

/-- `d` leads from one end to the other of a curve of length `L` which starts in the direction `t1` and ends in the direction `t2`, has the same
curvature `κ` all along, stays in the plane of `t1` and `t2` and turns through no more than half a circle: an arc of a circle, or a straight line -/
def IsArc (L : ℝ) (t1 t2 d : V3) : Prop :=
  ∃ (c u k : ℝ → V3) (κ : ℝ), 0 ≤ κ ∧ κ * L ≤ π ∧
    (∀ s, HasDerivAt c (u s) s) ∧ (∀ s, HasDerivAt u (k s) s) ∧
    (∀ s, dot (u s) (u s) = 1) ∧ (∀ s, dot (k s) (k s) = κ ^ 2) ∧
    (∀ s, ∃ a b : ℝ, u s = a • t1 + b • t2) ∧
    u 0 = t1 ∧ u L = t2 ∧ c 0 = 0 ∧ c L = d

/-! ## C70 -/

theorem dot_heading (az inc : ℝ) : dot (heading az inc) (heading az inc) = 1 := by
  simp only [dot, heading, Matrix.cons_val_zero, Matrix.cons_val_one, Matrix.cons_val]
  have h1 := sin_sq_add_cos_sq inc
  have h2 := sin_sq_add_cos_sq az
  linear_combination (sin inc ^ 2) * h2 + h1

theorem unitVector_eq (az inc : ℝ) : unitVector az inc = heading (radians az) (radians inc) := by
  have e : radians (180 - az) = π - radians az := by simp only [radians]; ring
  funext i
  unfold unitVector rotateVector rotation3d heading
  simp only [e, sin_pi_sub, cos_pi_sub]
  fin_cases i <;> simp [radians] <;> ring

theorem straight_arc (L : ℝ) (t : V3) (ht : dot t t = 1) : IsArc L t t (L • t) := by
  refine ⟨fun s => s • t, fun _ => t, fun _ => 0, 0, le_rfl, by simp [pi_pos.le], ?_, ?_, fun _ => ht, ?_, ?_, rfl, rfl, by simp, rfl⟩
  · intro s
    simpa using (hasDerivAt_id s).smul_const t
  · intro s; exact hasDerivAt_const s t
  · intro s; simp [dot]
  · intro s; exact ⟨1, 0, by simp⟩

theorem circle_arc (L θ : ℝ) (hL : 0 < L) (h0 : 0 < θ) (hpi : θ < π) (t1 t2 : V3) (h1 : dot t1 t1 = 1) (h2 : dot t2 t2 = 1)
    (h12 : dot t1 t2 = cos θ) : IsArc L t1 t2 ((L * (tan (1 / 2 * θ) / θ)) • (t1 + t2)) := by
  have hs : 0 < sin θ := sin_pos_of_pos_of_lt_pi h0 hpi
  have hs' := ne_of_gt hs
  have hθ := ne_of_gt h0
  have hL' := ne_of_gt hL
  set n : V3 := (1 / sin θ) • (t2 - cos θ • t1) with hn
  have hsc := sin_sq_add_cos_sq θ
  have hnn : dot n n = 1 := by
    have e : dot n n = (1 / sin θ) ^ 2 * (dot t2 t2 - 2 * cos θ * dot t1 t2 + cos θ ^ 2 * dot t1 t1) := by
      simp only [hn, dot, Pi.smul_apply, Pi.sub_apply, smul_eq_mul]; ring
    rw [e, h1, h2, h12]
    field_simp
    linear_combination -hsc
  have h1n : dot t1 n = 0 := by
    have e : dot t1 n = (1 / sin θ) * (dot t1 t2 - cos θ * dot t1 t1) := by
      simp only [hn, dot, Pi.smul_apply, Pi.sub_apply, smul_eq_mul]; ring
    rw [e, h1, h12]; ring
  have hκ : θ / L ≠ 0 := div_ne_zero hθ hL'
  have hlin : ∀ s : ℝ, HasDerivAt (fun s => θ / L * s) (θ / L) s := by
    intro s
    simpa using (hasDerivAt_id s).const_mul (θ / L)
  refine ⟨fun s => (sin (θ / L * s) / (θ / L)) • t1 + ((1 - cos (θ / L * s)) / (θ / L)) • n,
    fun s => cos (θ / L * s) • t1 + sin (θ / L * s) • n,
    fun s => (-(sin (θ / L * s) * (θ / L))) • t1 + (cos (θ / L * s) * (θ / L)) • n, θ / L, (div_pos h0 hL).le, ?_, ?_, ?_, ?_, ?_, ?_, ?_, ?_, ?_, ?_⟩
  · rw [div_mul_cancel₀ _ hL']; exact hpi.le
  · intro s
    have d1 : HasDerivAt (fun s => sin (θ / L * s) / (θ / L)) (cos (θ / L * s)) s := by
      have := ((hasDerivAt_sin (θ / L * s)).comp s (hlin s)).div_const (θ / L)
      rwa [mul_div_assoc, div_self hκ, mul_one] at this
    have d2 : HasDerivAt (fun s => (1 - cos (θ / L * s)) / (θ / L)) (sin (θ / L * s)) s := by
      have := (((hasDerivAt_cos (θ / L * s)).comp s (hlin s)).const_sub 1).div_const (θ / L)
      rwa [neg_mul, neg_neg, mul_div_assoc, div_self hκ, mul_one] at this
    exact (d1.smul_const t1).add (d2.smul_const n)
  · intro s
    have d1 : HasDerivAt (fun s => cos (θ / L * s)) (-(sin (θ / L * s) * (θ / L))) s := by
      have := (hasDerivAt_cos (θ / L * s)).comp s (hlin s)
      rwa [neg_mul] at this
    have d2 : HasDerivAt (fun s => sin (θ / L * s)) (cos (θ / L * s) * (θ / L)) s :=
      (hasDerivAt_sin (θ / L * s)).comp s (hlin s)
    exact (d1.smul_const t1).add (d2.smul_const n)
  · intro s
    have e : dot (cos (θ / L * s) • t1 + sin (θ / L * s) • n) (cos (θ / L * s) • t1 + sin (θ / L * s) • n) =
        cos (θ / L * s) ^ 2 * dot t1 t1 + 2 * cos (θ / L * s) * sin (θ / L * s) * dot t1 n + sin (θ / L * s) ^ 2 * dot n n := by
      simp only [dot, Pi.smul_apply, Pi.add_apply, smul_eq_mul]; ring
    show dot (cos (θ / L * s) • t1 + sin (θ / L * s) • n) _ = 1
    rw [e, h1, h1n, hnn]
    linear_combination sin_sq_add_cos_sq (θ / L * s)
  · intro s
    have e : dot ((-(sin (θ / L * s) * (θ / L))) • t1 + (cos (θ / L * s) * (θ / L)) • n)
        ((-(sin (θ / L * s) * (θ / L))) • t1 + (cos (θ / L * s) * (θ / L)) • n) =
        (θ / L) ^ 2 * (sin (θ / L * s) ^ 2 * dot t1 t1 - 2 * cos (θ / L * s) * sin (θ / L * s) * dot t1 n + cos (θ / L * s) ^ 2 * dot n n) := by
      simp only [dot, Pi.smul_apply, Pi.add_apply, smul_eq_mul]; ring
    show dot _ _ = _
    rw [e, h1, h1n, hnn]
    linear_combination (θ / L) ^ 2 * sin_sq_add_cos_sq (θ / L * s)
  · intro s
    refine ⟨cos (θ / L * s) - sin (θ / L * s) * cos θ / sin θ, sin (θ / L * s) / sin θ, ?_⟩
    funext i
    simp only [hn, Pi.smul_apply, Pi.add_apply, Pi.sub_apply, smul_eq_mul]
    field_simp
    ring
  · simp
  · funext i
    simp only [hn, Pi.smul_apply, Pi.add_apply, Pi.sub_apply, smul_eq_mul, div_mul_cancel₀ _ hL']
    field_simp
    ring
  · simp
  · have hc2 : cos (1 / 2 * θ) ≠ 0 := by
      apply ne_of_gt
      apply cos_pos_of_mem_Ioo
      constructor <;> linarith
    have ht : tan (1 / 2 * θ) = (1 - cos θ) / sin θ := by
      have hθ2 : θ = 2 * (1 / 2 * θ) := by ring
      have hs2 : sin (1 / 2 * θ) ≠ 0 := by
        apply ne_of_gt
        apply sin_pos_of_pos_of_lt_pi <;> linarith
      have hsum := sin_sq_add_cos_sq (1 / 2 * θ)
      rw [tan_eq_sin_div_cos]
      conv_rhs => rw [hθ2, cos_two_mul, sin_two_mul]
      generalize sin (1 / 2 * θ) = S at *
      generalize cos (1 / 2 * θ) = C at *
      rw [div_eq_div_iff hc2 (by positivity)]
      linear_combination 2 * C * hsum
    funext i
    simp only [hn, Pi.smul_apply, Pi.add_apply, Pi.sub_apply, smul_eq_mul, div_mul_cancel₀ _ hL', ht]
    field_simp
    linear_combination (t1 i) * hsc

/-- The displacement between two stations of a survey with angles in degrees leads along an arc of a circle of the length between them, from the heading at
the first to the heading at the second.
Full statement wanted: for every pair of stations with increasing measured depths; see the `violated` theorems. -/
theorem C70_arc_partial (s1 s2 : Station) (hmd : s1.md < s2.md)
    (hne : (s1.inc = s2.inc ∧ s1.az = s2.az) ∨ (stationHeading true s1 ≠ stationHeading true s2 ∧ stationHeading true s1 ≠ -stationHeading true s2)) :
    ∃ d, delta s1 s2 = .ok d ∧ IsArc (s2.md - s1.md) (stationHeading true s1) (stationHeading true s2) d := by
  have hL : 0 < s2.md - s1.md := by linarith
  have hh : ∀ s : Station, stationHeading true s = heading (radians s.az) (radians s.inc) := fun s => rfl
  unfold delta
  rw [if_neg (not_not.2 hL)]
  by_cases heq : s1.inc = s2.inc ∧ s1.az = s2.az
  · rw [if_pos heq]
    refine ⟨_, rfl, ?_⟩
    rw [unitVector_eq, hh, hh, ← heq.1, ← heq.2]
    exact straight_arc _ _ (dot_heading _ _)
  · rw [if_neg heq]
    obtain ⟨hn1, hn2⟩ := hne.resolve_left heq
    rw [hh, hh] at hn1 hn2
    rw [hh, hh]
    dsimp only
    have u1 := dot_heading (radians s1.az) (radians s1.inc)
    have u2 := dot_heading (radians s2.az) (radians s2.inc)
    have hd : cos (radians s2.inc - radians s1.inc) - sin (radians s1.inc) * sin (radians s2.inc) * (1 - cos (radians s2.az - radians s1.az)) =
        dot (heading (radians s1.az) (radians s1.inc)) (heading (radians s2.az) (radians s2.inc)) := by
      simp only [dot, heading, Matrix.cons_val_zero, Matrix.cons_val_one, Matrix.cons_val, cos_sub]
      ring
    have hr : (![(s2.md - s1.md) * (tan (1 / 2 * arccos (min (max (cos (radians s2.inc - radians s1.inc) - sin (radians s1.inc) * sin (radians s2.inc) * (1 - cos (radians s2.az - radians s1.az))) (-1)) 1)) / arccos (min (max (cos (radians s2.inc - radians s1.inc) - sin (radians s1.inc) * sin (radians s2.inc) * (1 - cos (radians s2.az - radians s1.az))) (-1)) 1)) * (sin (radians s1.inc) * sin (radians s1.az) + sin (radians s2.inc) * sin (radians s2.az)),
        (s2.md - s1.md) * (tan (1 / 2 * arccos (min (max (cos (radians s2.inc - radians s1.inc) - sin (radians s1.inc) * sin (radians s2.inc) * (1 - cos (radians s2.az - radians s1.az))) (-1)) 1)) / arccos (min (max (cos (radians s2.inc - radians s1.inc) - sin (radians s1.inc) * sin (radians s2.inc) * (1 - cos (radians s2.az - radians s1.az))) (-1)) 1)) * (sin (radians s1.inc) * cos (radians s1.az) + sin (radians s2.inc) * cos (radians s2.az)),
        (s2.md - s1.md) * (tan (1 / 2 * arccos (min (max (cos (radians s2.inc - radians s1.inc) - sin (radians s1.inc) * sin (radians s2.inc) * (1 - cos (radians s2.az - radians s1.az))) (-1)) 1)) / arccos (min (max (cos (radians s2.inc - radians s1.inc) - sin (radians s1.inc) * sin (radians s2.inc) * (1 - cos (radians s2.az - radians s1.az))) (-1)) 1)) * (cos (radians s1.inc) + cos (radians s2.inc))] : V3) =
        ((s2.md - s1.md) * (tan (1 / 2 * arccos (min (max (cos (radians s2.inc - radians s1.inc) - sin (radians s1.inc) * sin (radians s2.inc) * (1 - cos (radians s2.az - radians s1.az))) (-1)) 1)) / arccos (min (max (cos (radians s2.inc - radians s1.inc) - sin (radians s1.inc) * sin (radians s2.inc) * (1 - cos (radians s2.az - radians s1.az))) (-1)) 1))) •
          (heading (radians s1.az) (radians s1.inc) + heading (radians s2.az) (radians s2.inc)) := by
      funext i
      unfold heading
      fin_cases i <;> simp
    rw [hr, hd]
    clear hr hd
    generalize heading (radians s1.az) (radians s1.inc) = t1 at *
    generalize heading (radians s2.az) (radians s2.inc) = t2 at *
    have hlt : dot t1 t2 < 1 := by
      have hsq : 0 < (t1 0 - t2 0) ^ 2 + (t1 1 - t2 1) ^ 2 + (t1 2 - t2 2) ^ 2 := by
        by_contra hc
        apply hn1
        have a0 := sq_nonneg (t1 0 - t2 0)
        have a1 := sq_nonneg (t1 1 - t2 1)
        have a2 := sq_nonneg (t1 2 - t2 2)
        have b0 : t1 0 - t2 0 = 0 := by apply pow_eq_zero_iff (two_ne_zero) |>.1; linarith
        have b1 : t1 1 - t2 1 = 0 := by apply pow_eq_zero_iff (two_ne_zero) |>.1; linarith
        have b2 : t1 2 - t2 2 = 0 := by apply pow_eq_zero_iff (two_ne_zero) |>.1; linarith
        funext i
        fin_cases i <;> simp <;> linarith
      unfold dot at *
      nlinarith
    have hgt : -1 < dot t1 t2 := by
      have hsq : 0 < (t1 0 + t2 0) ^ 2 + (t1 1 + t2 1) ^ 2 + (t1 2 + t2 2) ^ 2 := by
        by_contra hc
        apply hn2
        have a0 := sq_nonneg (t1 0 + t2 0)
        have a1 := sq_nonneg (t1 1 + t2 1)
        have a2 := sq_nonneg (t1 2 + t2 2)
        have b0 : t1 0 + t2 0 = 0 := by apply pow_eq_zero_iff (two_ne_zero) |>.1; linarith
        have b1 : t1 1 + t2 1 = 0 := by apply pow_eq_zero_iff (two_ne_zero) |>.1; linarith
        have b2 : t1 2 + t2 2 = 0 := by apply pow_eq_zero_iff (two_ne_zero) |>.1; linarith
        funext i
        fin_cases i <;> simp <;> linarith
      unfold dot at *
      nlinarith
    rw [max_eq_left hgt.le, min_eq_left hlt.le]
    have h0 : 0 < arccos (dot t1 t2) := arccos_pos.2 hlt
    have hpi : arccos (dot t1 t2) < π := by
      refine lt_of_le_of_ne (arccos_le_pi _) ?_
      intro h
      rw [arccos_eq_pi] at h
      linarith
    rw [if_neg (ne_of_gt h0)]
    refine ⟨_, rfl, ?_⟩
    exact circle_arc _ _ hL h0 hpi t1 t2 u1 u2 (cos_arccos hgt.le hlt.le).symm

theorem pointsFrom_spec : ∀ (ss : List Station) (p : V3),
    List.IsChain (fun s1 s2 : Station => s1.md < s2.md ∧ ((s1.inc = s2.inc ∧ s1.az = s2.az) ∨
      (stationHeading true s1 ≠ stationHeading true s2 ∧ stationHeading true s1 ≠ -stationHeading true s2))) ss →
    ∃ ps, pointsFrom p ss = .ok ps ∧ ps.length + 1 = max 1 ss.length ∧
      ∀ i s1 s2 a b, ss[i]? = some s1 → ss[i + 1]? = some s2 → (p :: ps)[i]? = some a → (p :: ps)[i + 1]? = some b →
        IsArc (s2.md - s1.md) (stationHeading true s1) (stationHeading true s2) (b - a) := by
  intro ss
  induction ss with
  | nil => intro p _; exact ⟨[], rfl, rfl, by intro i s1 s2 a b h; simp at h⟩
  | cons s ss ih =>
    intro p h
    cases ss with
    | nil => exact ⟨[], rfl, rfl, by intro i s1 s2 a b _ h; simp at h⟩
    | cons s' rest =>
      rw [List.isChain_cons_cons] at h
      obtain ⟨d, hd, harc⟩ := C70_arc_partial s s' h.1.1 h.1.2
      obtain ⟨ps, h1, h2, h3⟩ := ih (p + d) h.2
      refine ⟨(p + d) :: ps, ?_, ?_, ?_⟩
      · unfold pointsFrom
        rw [hd]
        dsimp only
        rw [h1]
      · simp only [List.length_cons] at h2 ⊢; omega
      · intro i s1 s2 a b e1 e2 e3 e4
        cases i with
        | zero =>
          simp at e1 e2 e3 e4
          subst e1 e2 e3 e4
          rw [add_sub_cancel_left]
          exact harc
        | succ i =>
          exact h3 i s1 s2 a b (by simpa using e1) (by simpa using e2) (by simpa using e3) (by simpa using e4)

/-- The control points of a survey in degrees: one for each station, the first at the given place, and each pair of successive points joined by an arc
between the headings of their stations.
Full statement wanted: for every survey with increasing measured depths; see the `violated` theorems. -/
theorem C70_points_partial (s : Survey) (hs : s.stations ≠ []) (hc : List.IsChain (fun s1 s2 : Station => s1.md < s2.md ∧ ((s1.inc = s2.inc ∧ s1.az = s2.az) ∨
      (stationHeading true s1 ≠ stationHeading true s2 ∧ stationHeading true s1 ≠ -stationHeading true s2))) s.stations) :
    ∃ ps, controlPoints s = .ok ps ∧ ps.length = s.stations.length ∧ ps[0]? = some s.first ∧
      ∀ i s1 s2 a b, s.stations[i]? = some s1 → s.stations[i + 1]? = some s2 → ps[i]? = some a → ps[i + 1]? = some b →
        IsArc (s2.md - s1.md) (stationHeading true s1) (stationHeading true s2) (b - a) := by
  obtain ⟨ps, h1, h2, h3⟩ := pointsFrom_spec s.stations s.first hc
  refine ⟨s.first :: ps, by unfold controlPoints; rw [h1], ?_, by simp, h3⟩
  have : 1 ≤ s.stations.length := List.length_pos_iff.2 hs
  simp only [List.length_cons]; omega

/-- A vertical section of a survey for which different azimuths are given, so with one and the same heading at both ends, is refused. -/
theorem C70_vertical_violated (md1 md2 az1 az2 : ℝ) (h : md1 < md2) (haz : az1 ≠ az2) :
    stationHeading true ⟨md1, az1, 0⟩ = stationHeading true ⟨md2, az2, 0⟩ ∧ delta ⟨md1, az1, 0⟩ ⟨md2, az2, 0⟩ = .error .assertion := by
  constructor
  · simp [stationHeading, heading]
  · unfold delta
    rw [if_neg (by simp only [not_not]; linarith), if_neg (by rintro ⟨-, h'⟩; exact haz h')]
    dsimp only
    rw [if_pos]
    simp [radians]

/-- Azimuths of 0 and of 360 degrees with one and the same inclination are refused too. -/
theorem C70_full_turn_violated (md1 md2 inc : ℝ) (h : md1 < md2) :
    stationHeading true ⟨md1, 0, inc⟩ = stationHeading true ⟨md2, 360, inc⟩ ∧ delta ⟨md1, 0, inc⟩ ⟨md2, 360, inc⟩ = .error .assertion := by
  have e : (360 : ℝ) * π / 180 = 2 * π := by ring
  constructor
  · simp [stationHeading, heading, e]
  · unfold delta
    rw [if_neg (by simp only [not_not]; linarith), if_neg (by rintro ⟨-, h'⟩; norm_num at h')]
    dsimp only
    rw [if_pos]
    simp [radians, e]

/-- A survey of a horizontal well with its angles in radians gives a trajectory which is not horizontal. -/
theorem C70_radians_violated : ∃ s : Survey, s.anglesInDegrees = false ∧ (∀ st ∈ s.stations, stationHeading false st 2 = 0) ∧
    ∃ a b, controlPoints s = .ok [a, b] ∧ a 2 < b 2 := by
  refine ⟨⟨false, [⟨0, 0, π / 2⟩, ⟨1, 0, π / 2⟩], 0⟩, rfl, ?_, 0, unitVector 0 (π / 2), ?_, ?_⟩
  · intro st hst
    simp at hst
    rcases hst with rfl | rfl <;> simp [stationHeading, heading]
  · unfold controlPoints pointsFrom
    dsimp only
    have : delta ⟨0, 0, π / 2⟩ ⟨1, 0, π / 2⟩ = .ok (unitVector 0 (π / 2)) := by
      unfold delta
      rw [if_neg (by norm_num), if_pos ⟨rfl, rfl⟩]
      simp
    rw [this]
    simp [pointsFrom]
  · rw [unitVector_eq]
    simp only [heading, Matrix.cons_val, Pi.zero_apply]
    apply cos_pos_of_mem_Ioo
    have h1 := pi_pos
    have h2 := pi_lt_four
    unfold radians
    constructor
    · have : 0 ≤ π / 2 * π / 180 := by positivity
      linarith
    · nlinarith

/-- a survey that the theorem above applies to: building angle from vertical to horizontal -/
example : ∃ d, delta ⟨0, 0, 0⟩ ⟨100, 0, 90⟩ = .ok d ∧ IsArc (100 - 0) (stationHeading true ⟨0, 0, 0⟩) (stationHeading true ⟨100, 0, 90⟩) d := by
  have e : (90 : ℝ) * π / 180 = π / 2 := by ring
  apply C70_arc_partial
  · norm_num
  · right
    constructor
    · intro h
      have := congrFun h 2
      simp [stationHeading, heading, e] at this
    · intro h
      have := congrFun h 2
      simp [stationHeading, heading, e] at this

/-! ## C71 -/

/-- For an interval of a trajectory not going straight up, the inclination is the angle in degrees between the interval and the downward vertical.
Full statement wanted: also for intervals going straight up; see `C71_up_violated`. -/
theorem C71_inclination_partial (zIncDown : Bool) (zf : ℝ) (v : V3)
    (hne : ¬ (v 0 = 0 ∧ v 1 = 0 ∧ (if zIncDown then v 2 * zf else -(v 2 * zf)) ≤ 0)) :
    inclination zIncDown zf v = arccos ((if zIncDown then v 2 * zf else -(v 2 * zf)) /
      sqrt (v 0 ^ 2 + v 1 ^ 2 + (v 2 * zf) ^ 2)) * 180 / π := by
  unfold inclination
  dsimp only
  have hz2 : (v 2 * zf) ^ 2 = (if zIncDown then v 2 * zf else -(v 2 * zf)) ^ 2 := by
    cases zIncDown <;> simp
  rw [hz2]
  generalize (if zIncDown then v 2 * zf else -(v 2 * zf)) = z at *
  have hh0 : v 0 * v 0 + v 1 * v 1 = v 0 ^ 2 + v 1 ^ 2 := by ring
  rw [hh0]
  have hnn : 0 ≤ v 0 ^ 2 + v 1 ^ 2 := by positivity
  generalize hhd : sqrt (v 0 ^ 2 + v 1 ^ 2) = h
  have hh : 0 ≤ h := by rw [← hhd]; exact sqrt_nonneg _
  have hsq : v 0 ^ 2 + v 1 ^ 2 = h ^ 2 := by rw [← hhd, sq_sqrt hnn]
  rw [hsq]
  have hpos : 0 < h ∨ 0 < z := by
    by_contra hc
    push Not at hc
    have h0 : h = 0 := le_antisymm hc.1 hh
    rw [h0] at hsq
    have a0 := sq_nonneg (v 0)
    have a1 := sq_nonneg (v 1)
    have b0 : v 0 = 0 := by apply pow_eq_zero_iff (two_ne_zero) |>.1; linarith
    have b1 : v 1 = 0 := by apply pow_eq_zero_iff (two_ne_zero) |>.1; linarith
    exact hne ⟨b0, b1, hc.2⟩
  have hr2 : 0 < h ^ 2 + z ^ 2 := by
    rcases hpos with h1 | h1 <;> positivity
  set r := sqrt (h ^ 2 + z ^ 2) with hrd
  have hr : 0 < r := sqrt_pos.2 hr2
  have hrr : r ^ 2 = h ^ 2 + z ^ 2 := sq_sqrt hr2.le
  have hr' := ne_of_gt hr
  have hlo : -1 ≤ z / r := by rw [le_div_iff₀ hr]; nlinarith [sq_nonneg h]
  have hhi : z / r ≤ 1 := by rw [div_le_one hr]; nlinarith [sq_nonneg h]
  set φ := arccos (z / r) with hφ
  have hcos : cos φ = z / r := cos_arccos hlo hhi
  have hsin : sin φ = h / r := by
    rw [hφ, sin_arccos]
    rw [show 1 - (z / r) ^ 2 = (h / r) ^ 2 by field_simp; linarith]
    exact sqrt_sq (div_nonneg hh hr.le)
  have hφ0 : 0 ≤ φ := arccos_nonneg _
  have hφpi : φ ≤ π := arccos_le_pi _
  have key : (if (if z = 0 then π / 2 else arctan (h / z)) < 0 then (if z = 0 then π / 2 else arctan (h / z)) + π
      else (if z = 0 then π / 2 else arctan (h / z))) = φ := by
    by_cases hz : z = 0
    · rw [if_pos hz, if_neg (by have := pi_pos; linarith), hφ, hz, zero_div, arccos_zero]
    · rw [if_neg hz]
      have htan : h / z = tan φ := by
        rw [tan_eq_sin_div_cos, hcos, hsin]
        field_simp
      rcases lt_or_gt_of_ne hz with hneg | hp
      · have hh1 : 0 < h := by
          rcases hpos with h1 | h1
          · exact h1
          · linarith
        have hgt : π / 2 < φ := by
          by_contra hc
          have := cos_nonneg_of_neg_pi_div_two_le_of_le (by have := pi_pos; linarith) (not_lt.1 hc)
          rw [hcos] at this
          have := div_neg_of_neg_of_pos hneg hr
          linarith
        have hlt : φ < π := by
          refine lt_of_le_of_ne hφpi ?_
          intro h'
          rw [h', sin_pi] at hsin
          have := div_pos hh1 hr
          linarith
        have harc : arctan (h / z) = φ - π := by
          rw [htan, ← tan_sub_pi]
          exact arctan_tan (by linarith) (by linarith)
        rw [harc, if_pos (by linarith)]
        ring
      · have hlt : φ < π / 2 := by
          by_contra hc
          have := cos_nonpos_of_pi_div_two_le_of_le (not_lt.1 hc) (by have := pi_pos; linarith)
          rw [hcos] at this
          have := div_pos hp hr
          linarith
        have harc : arctan (h / z) = φ := by
          rw [htan]
          exact arctan_tan (by have := pi_pos; linarith) hlt
        rw [harc, if_neg (by linarith)]
  rw [key]
  rfl

/-- An interval going straight up is given an inclination of zero, that of an interval going straight down, where the angle is 180 degrees. -/
theorem C71_up_violated : inclination true 1 ![0, 0, -1] = 0 ∧ inclination true 1 ![0, 0, 1] = 0 ∧
    arccos ((-1) / sqrt (0 ^ 2 + 0 ^ 2 + (-1) ^ 2)) * 180 / π = 180 := by
  refine ⟨?_, ?_, ?_⟩
  · simp [inclination, degrees]
  · simp [inclination, degrees]
  · have := pi_ne_zero
    simp

example : inclination true 1 ![1, 0, 0] = 90 := by
  rw [C71_inclination_partial _ _ _ (by simp)]
  have := pi_ne_zero
  simp
  field_simp
  norm_num

end Verif.Wells.Survey
