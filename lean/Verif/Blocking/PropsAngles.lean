import Verif.Blocking.Angles
import Verif.Blocking.PropsKh
import Mathlib.Data.Matrix.Mul
import Mathlib.LinearAlgebra.Matrix.NonsingularInverse
import Mathlib.Tactic.Linarith
import Mathlib.Tactic.LinearCombination
import Mathlib.Tactic.FinCases

/-!
# C129: angles of intervals of blocked wells
-/

namespace Verif.Blocking
open Verif.Py

/-! ## specification -/

/-- a direction -/
def Unit3 (v : Vec) : Prop := v 0 ^ 2 + v 1 ^ 2 + v 2 ^ 2 = 1

/-- at right angles -/
def Normal (v w : Vec) : Prop := v 0 * w 0 + v 1 * w 1 + v 2 * w 2 = 0

/-- two directions `e` and `f` for a reference direction `r` and the axis `i` of a cell: `e` is that of the axis seen along `r`, `f` is at right angles to
both, anticlockwise from `e` seen from above, x being to the right and y up -/
structure Frame (r i e f : Vec) : Prop where
  unit_e : Unit3 e
  unit_f : Unit3 f
  e_r : Normal e r
  f_r : Normal f r
  e_f : Normal e f
  along : ∃ s t : ℝ, 0 < s ∧ ∀ c, e c = s * i c + t * r c
  turn : 0 < e 0 * f 1 - e 1 * f 0

/-! ## lemmas -/

theorem dot_self_nonneg (v : Vec) : 0 ≤ dot v v := by
  unfold dot
  nlinarith [mul_self_nonneg (v 0), mul_self_nonneg (v 1), mul_self_nonneg (v 2)]

theorem norm_sq (v : Vec) : norm3 v ^ 2 = dot v v := Real.sq_sqrt (dot_self_nonneg v)

theorem norm_nonneg' (v : Vec) : 0 ≤ norm3 v := Real.sqrt_nonneg _

theorem fin3 (c : Fin 3) : c = 0 ∨ c = 1 ∨ c = 2 := by
  revert c; decide

theorem norm_zero {v : Vec} (h : norm3 v = 0) : ∀ c, v c = 0 := by
  have h1 := norm_sq v
  rw [h] at h1
  unfold dot at h1
  have a0 := mul_self_nonneg (v 0)
  have a1 := mul_self_nonneg (v 1)
  have a2 := mul_self_nonneg (v 2)
  intro c
  rcases fin3 c with rfl | rfl | rfl
  · exact mul_self_eq_zero.mp (by linarith)
  · exact mul_self_eq_zero.mp (by linarith)
  · exact mul_self_eq_zero.mp (by linarith)

theorem unitVector_unit {v : Vec} (h : norm3 v ≠ 0) : Unit3 (unitVector v) := by
  unfold Unit3 unitVector
  rw [if_neg h]
  have h1 := norm_sq v
  unfold dot at h1
  field_simp
  linarith

theorem unitVector_of {v e : Vec} {s : ℝ} (hs : 0 < s) (he : Unit3 e) (h : ∀ c, v c = s * e c) : unitVector v = e := by
  have h1 : dot v v = s ^ 2 := by
    unfold dot
    rw [h 0, h 1, h 2]
    unfold Unit3 at he
    linear_combination s ^ 2 * he
  have h2 : norm3 v = s := by
    unfold norm3
    rw [h1, Real.sqrt_sq hs.le]
  funext c
  unfold unitVector
  rw [h2, if_neg hs.ne', h c, mul_comm, mul_div_assoc, div_self hs.ne', mul_one]

/-- an orthonormal frame is complete -/
theorem complete {r e f : Vec} (hr : Unit3 r) (he : Unit3 e) (hf : Unit3 f) (h1 : Normal e r) (h2 : Normal f r) (h3 : Normal e f) (u : Vec) (c : Fin 3) :
    u c = dot u r * r c + dot u e * e c + dot u f * f c := by
  unfold Unit3 at hr he hf
  unfold Normal at h1 h2 h3
  let M : Matrix (Fin 3) (Fin 3) ℝ := Matrix.of ![r, e, f]
  have hM : M * M.transpose = 1 := by
    ext a b
    rw [Matrix.mul_apply, Fin.sum_univ_three]
    fin_cases a <;> fin_cases b <;> simp [M] <;> linarith
  have hN : M.transpose * M = 1 := mul_eq_one_comm.mp hM
  have key : ∀ a b : Fin 3, r a * r b + e a * e b + f a * f b = (1 : Matrix (Fin 3) (Fin 3) ℝ) a b := by
    intro a b
    rw [← hN, Matrix.mul_apply, Fin.sum_univ_three]
    simp [M]
  unfold dot
  have k0 := key c 0
  have k1 := key c 1
  have k2 := key c 2
  have hsum : u 0 * (1 : Matrix (Fin 3) (Fin 3) ℝ) c 0 + u 1 * (1 : Matrix (Fin 3) (Fin 3) ℝ) c 1 + u 2 * (1 : Matrix (Fin 3) (Fin 3) ℝ) c 2 = u c := by
    rcases fin3 c with rfl | rfl | rfl <;> simp [Matrix.one_apply]
  rw [← hsum, ← k0, ← k1, ← k2]
  ring

theorem clamp_id {x : ℝ} (h : x ^ 2 ≤ 1) : clamp x = x := by
  unfold clamp
  have h1 : -1 ≤ x := by nlinarith
  have h2 : x ≤ 1 := by nlinarith
  rw [max_eq_left h1, min_eq_left h2]

theorem degrees_zero {x : ℝ} : degrees x = 0 ↔ x = 0 := by
  unfold degrees
  constructor
  · intro h
    have := Real.pi_pos
    field_simp at h
    linarith
  · rintro rfl; simp

theorem down_ok (g : CrsU) : Unit3 (down g) ∧ down g 2 ≠ 0 := by
  unfold down Unit3
  cases g.zDown <;> simp

theorem notFlat_ok (g : CrsU) (v : Vec) (h : Unit3 v ∨ v 2 = 0) : Unit3 (notFlat g v) ∧ notFlat g v 2 ≠ 0 := by
  unfold notFlat
  by_cases h0 : v 2 = 0
  · rw [if_pos h0]; exact down_ok g
  · rw [if_neg h0]
    exact ⟨h.resolve_right h0, h0⟩

theorem unitVector_or (v : Vec) : Unit3 (unitVector v) ∨ unitVector v 2 = 0 := by
  by_cases h : norm3 v = 0
  · right
    unfold unitVector
    rw [if_pos h]
    exact norm_zero h 2
  · exact Or.inl (unitVector_unit h)

theorem neg_or {v : Vec} (h : Unit3 v ∨ v 2 = 0) : Unit3 (fun c => -v c) ∨ (fun c => -v c) 2 = 0 := by
  rcases h with h | h
  · left
    unfold Unit3 at h ⊢
    linear_combination h
  · right
    simp [h]

theorem turnDown_or (g : CrsU) {v : Vec} (h : Unit3 v ∨ v 2 = 0) : Unit3 (turnDown g v) ∨ turnDown g v 2 = 0 := by
  unfold turnDown
  split_ifs
  · exact neg_or h
  · exact h
  · exact neg_or h
  · exact h

/-- **C129** the reference for an inclination is always a direction, and is never horizontal, whatever the shape of the cell -/
theorem C129_reference (g : CrsU) (kDown : Bool) (axes : Fin 3 → Vec) (m : Ref) (hm : m ≠ .wellI) :
    ∃ r, refVector g kDown axes m = some r ∧ Unit3 r ∧ r 2 ≠ 0 := by
  cases m with
  | wellI => exact absurd rfl hm
  | gravity => exact ⟨_, rfl, notFlat_ok g _ (unitVector_or _)⟩
  | zDown => exact ⟨_, rfl, down_ok g⟩
  | zPlus => exact ⟨_, rfl, by simp [Unit3], by simp⟩
  | kDown =>
    refine ⟨_, rfl, notFlat_ok g _ ?_⟩
    split_ifs
    · exact unitVector_or _
    · exact neg_or (unitVector_or _)
  | kPlus => exact ⟨_, rfl, notFlat_ok g _ (unitVector_or _)⟩
  | normalIj => exact ⟨_, rfl, notFlat_ok g _ (unitVector_or _)⟩
  | normalIjDown => exact ⟨_, rfl, notFlat_ok g _ (turnDown_or g (unitVector_or _))⟩

/-- **C129** downward references are downward -/
theorem C129_reference_down (g : CrsU) (kDown : Bool) (axes : Fin 3 → Vec) (m : Ref) (hm : m = .zDown ∨ m = .normalIjDown) (r : Vec)
    (h : refVector g kDown axes m = some r) : if g.zDown then 0 < r 2 else r 2 < 0 := by
  have hd : if g.zDown then 0 < down g 2 else down g 2 < 0 := by
    unfold down
    cases g.zDown <;> simp
  rcases hm with rfl | rfl
  · cases h
    exact hd
  · cases h
    have ht : ∀ v : Vec, turnDown g v 2 ≠ 0 → if g.zDown then 0 < turnDown g v 2 else turnDown g v 2 < 0 := by
      intro v h0
      unfold turnDown at h0 ⊢
      cases hz : g.zDown with
      | true =>
        simp only [hz, if_true] at h0 ⊢
        split_ifs at h0 ⊢ with h1
        · exact neg_pos.mpr h1
        · exact lt_of_le_of_ne (not_lt.mp h1) (Ne.symm h0)
      | false =>
        simp only [hz, Bool.false_eq_true, if_false] at h0 ⊢
        split_ifs at h0 ⊢ with h1
        · exact neg_neg_of_pos h1
        · exact lt_of_le_of_ne (not_lt.mp h1) h0
    unfold notFlat
    by_cases h0 : turnDown g (unitVector (cross (convertZ g (axes 1)) (convertZ g (axes 2)))) 2 = 0
    · rw [if_pos h0]; exact hd
    · rw [if_neg h0]; exact ht _ h0

theorem inPlane_dir {r v e f : Vec} {s : ℝ} (hr : Unit3 r) (he : Unit3 e) (h : Normal e r) {t : ℝ} (hs : 0 < s) (hv : ∀ c, v c = s * e c + t * r c) :
    inPlane (some r) v = e := by
  unfold Unit3 at hr
  unfold Normal at h
  refine unitVector_of hs he ?_
  have h1 : dot v r = t := by
    unfold dot
    rw [hv 0, hv 1, hv 2]
    linear_combination s * h + t * hr
  intro c
  rw [h1, hv c]
  ring

/-- sine and cosine from the components of a direction at right angles to the reference -/
theorem lateral_spec {g : CrsU} (hg : g.xy = g.z) {r i e f u : Vec} (hr : Unit3 r) (hu : Unit3 u) (fr : Frame r i e f)
    (hne : dot u r ^ 2 ≠ 1) :
    ∃ s, 0 < s ∧ s ^ 2 = 1 - dot u r ^ 2 ∧ s * (lateral none g i u (some r)).2.2 = dot u e ∧ s * (lateral none g i u (some r)).2.1 = dot u f := by
  obtain ⟨he, hf, h1, h2, h3, ⟨p, q, hp, hi⟩, ht⟩ := fr
  have hc := complete hr he hf h1 h2 h3 u
  have hsum : dot u r ^ 2 + dot u e ^ 2 + dot u f ^ 2 = 1 := by
    have : dot u u = 1 := by unfold dot; unfold Unit3 at hu; linear_combination hu
    rw [← this]
    have e0 := hc 0
    have e1 := hc 1
    have e2 := hc 2
    have : dot u u = u 0 * (dot u r * r 0 + dot u e * e 0 + dot u f * f 0) + u 1 * (dot u r * r 1 + dot u e * e 1 + dot u f * f 1) +
        u 2 * (dot u r * r 2 + dot u e * e 2 + dot u f * f 2) := by
      rw [← e0, ← e1, ← e2]; rfl
    rw [this]
    unfold dot
    ring
  have hpos : 0 < 1 - dot u r ^ 2 := by
    have := sq_nonneg (dot u e)
    have := sq_nonneg (dot u f)
    rcases lt_or_eq_of_le (show 0 ≤ 1 - dot u r ^ 2 by linarith) with h | h
    · exact h
    · exact absurd (by linarith) hne
  have hs := Real.sqrt_pos.mpr hpos
  have hs2 := Real.sq_sqrt hpos.le
  generalize Real.sqrt (1 - dot u r ^ 2) = s at hs hs2
  refine ⟨s, hs, hs2, ?_⟩
  -- the axis
  have hi0 : norm3 (convertZ g i) ≠ 0 := by
    unfold convertZ
    rw [if_pos hg]
    intro h
    have hz := norm_zero h
    have a : ∀ c, e c = q * r c := fun c => by rw [hi c, hz c]; ring
    have a1 : dot e e = 1 := by unfold dot; unfold Unit3 at he; linear_combination he
    have a2 : dot e e = q * (e 0 * r 0 + e 1 * r 1 + e 2 * r 2) := by
      unfold dot; rw [show e 0 * e 0 = e 0 * (q * r 0) by rw [← a 0], show e 1 * e 1 = e 1 * (q * r 1) by rw [← a 1],
        show e 2 * e 2 = e 2 * (q * r 2) by rw [← a 2]]; ring
    unfold Normal at h1
    rw [h1, mul_zero, a1] at a2
    exact one_ne_zero a2
  have hn : 0 < norm3 i := by
    unfold convertZ at hi0
    rw [if_pos hg] at hi0
    exact lt_of_le_of_ne (norm_nonneg' i) (Ne.symm hi0)
  have hI : inPlane (some r) (unitVector (convertZ g i)) = e := by
    refine inPlane_dir (f := f) (s := 1 / (norm3 i * p)) (t := -q / (norm3 i * p)) hr he h1 (by positivity) ?_
    intro c
    unfold unitVector
    rw [if_neg hi0]
    unfold convertZ
    rw [if_pos hg, hi c]
    field_simp
    ring
  -- the well
  have hV : inPlane (some r) u = fun c => dot u e / s * e c + dot u f / s * f c := by
    refine unitVector_of hs ?_ ?_
    · unfold Unit3 at he hf ⊢
      unfold Normal at h3
      have hk : dot u e ^ 2 + dot u f ^ 2 = s ^ 2 := by linarith
      field_simp
      linear_combination (dot u e) ^ 2 * he + (dot u f) ^ 2 * hf + 2 * dot u e * dot u f * h3 + hk
    · intro c
      rw [hc c]
      have hd : dot (fun c => dot u r * r c + dot u e * e c + dot u f * f c) r = dot u r := by
        unfold Unit3 at hr
        unfold Normal at h1 h2
        simp only [dot] at *
        linear_combination (u 0 * r 0 + u 1 * r 1 + u 2 * r 2) * hr + (u 0 * e 0 + u 1 * e 1 + u 2 * e 2) * h1 +
          (u 0 * f 0 + u 1 * f 1 + u 2 * f 2) * h2
      field_simp
      ring
  have hdot : dot (fun c => dot u e / s * e c + dot u f / s * f c) e = dot u e / s := by
    unfold Unit3 at he
    unfold Normal at h3
    have : ∀ x y : ℝ, dot (fun c => x * e c + y * f c) e = x := by
      intro x y
      unfold dot
      linear_combination x * he + y * h3
    exact this _ _
  have hcl : (dot u e / s) ^ 2 ≤ 1 := by
    rw [div_pow, div_le_one (by positivity)]
    nlinarith [sq_nonneg (dot u f)]
  have hsin : Real.sin (Real.arccos (dot u e / s)) = |dot u f| / s := by
    rw [Real.sin_arccos]
    have : 1 - (dot u e / s) ^ 2 = (|dot u f| / s) ^ 2 := by
      rw [div_pow, div_pow, sq_abs]
      field_simp
      linarith
    rw [this, Real.sqrt_sq (by positivity)]
  have hcw : (dot u e / s * e 0 + dot u f / s * f 0) * e 1 - (dot u e / s * e 1 + dot u f / s * f 1) * e 0 = -(dot u f / s * (e 0 * f 1 - e 1 * f 0)) := by
    ring
  unfold lateral
  simp only
  rw [hI, hV, hdot, clamp_id hcl, hsin]
  simp only [hcw]
  by_cases hb : 0 < -(dot u f / s * (e 0 * f 1 - e 1 * f 0))
  · rw [if_pos hb]
    have : dot u f < 0 := by
      by_contra hh
      have : 0 ≤ dot u f / s * (e 0 * f 1 - e 1 * f 0) := mul_nonneg (div_nonneg (not_lt.mp hh) hs.le) ht.le
      linarith
    rw [abs_of_neg this]
    constructor
    · field_simp
    · field_simp
  · rw [if_neg hb]
    have : 0 ≤ dot u f := by
      by_contra hh
      have : dot u f / s * (e 0 * f 1 - e 1 * f 0) < 0 := mul_neg_of_neg_of_pos (div_neg_of_neg_of_pos (not_le.mp hh) hs) ht
      linarith
    rw [abs_of_nonneg this]
    constructor
    · field_simp
    · field_simp

theorem dot_le_one {u r : Vec} (hu : Unit3 u) (hr : Unit3 r) : dot u r ^ 2 ≤ 1 := by
  unfold Unit3 at hu hr
  unfold dot
  nlinarith [sq_nonneg (u 0 * r 1 - u 1 * r 0), sq_nonneg (u 0 * r 2 - u 2 * r 0), sq_nonneg (u 1 * r 2 - u 2 * r 1), hu, hr]

theorem same_of_dot {u r : Vec} (hu : Unit3 u) (hr : Unit3 r) {x : ℝ} (hx : x ^ 2 = 1) (h : dot u r = x) (c : Fin 3) : u c = x * r c := by
  unfold Unit3 at hu hr
  unfold dot at h
  have : (u 0 - x * r 0) ^ 2 + (u 1 - x * r 1) ^ 2 + (u 2 - x * r 2) ^ 2 = 0 := by
    linear_combination hu + x ^ 2 * hr - 2 * x * h - hx
  have a0 := sq_nonneg (u 0 - x * r 0)
  have a1 := sq_nonneg (u 1 - x * r 1)
  have a2 := sq_nonneg (u 2 - x * r 2)
  rcases fin3 c with rfl | rfl | rfl
  · have := pow_eq_zero_iff (two_ne_zero) |>.mp (show (u 0 - x * r 0) ^ 2 = 0 by linarith); linarith
  · have := pow_eq_zero_iff (two_ne_zero) |>.mp (show (u 1 - x * r 1) ^ 2 = 0 by linarith); linarith
  · have := pow_eq_zero_iff (two_ne_zero) |>.mp (show (u 2 - x * r 2) ^ 2 = 0 by linarith); linarith

theorem lateral_one (g : CrsU) (i u : Vec) (r : Option Vec) : (lateral none g i u r).2.1 ^ 2 + (lateral none g i u r).2.2 ^ 2 = 1 := by
  have hcos : ∀ x, Real.sin (Real.arccos (clamp x)) ^ 2 + clamp x ^ 2 = 1 := by
    intro x
    have := Real.cos_arccos (x := clamp x) (by unfold clamp; exact le_min (le_max_right _ _) (by norm_num)) (by unfold clamp; exact min_le_right _ _)
    nth_rewrite 2 [← this]
    exact Real.sin_sq_add_cos_sq _
  unfold lateral
  simp only
  split_ifs
  · rw [neg_sq]; exact hcos _
  · exact hcos _

theorem joined_cv (v l : ℝ × ℝ × ℝ) (a : Option ℝ) : (joined v l a).cv = v.2.2 := by
  unfold joined
  split_ifs <;> rfl

/-- **C129** where units of the grid are the same for x, y and z and the direction of z is the same for the trajectory, angles with the same reference
for both say what the direction of the interval is: the inclination is the angle between it and the reference, and seen along the reference the
azimuth is the angle from the axis of the cell in the direction of i -/
theorem C129_direction_partial (faces : FacePair) (ee g : CrsU) (tz : Option Bool) (kDown : Bool) (axes : Fin 3 → Vec) (m : Ref) (entry exit u e f r : Vec)
    (d : ℝ) (hg : g.xy = g.z) (he : ee.xy = ee.z) (htz : tz = none ∨ tz = some g.zDown) (hm : m ≠ .wellI)
    (hd : 0 < d) (hu : Unit3 u) (hue : ∀ c, exit c - entry c = d * u c) (hr : refVector g kDown axes m = some r) (fr : Frame r (axes 2) e f) :
    let a := angles false faces none none ee tz g kDown axes (m, m) entry exit
    (∀ c, u c = a.cv * r c + a.sv * (a.ca * e c + a.sa * f c)) ∧ 0 ≤ a.sv ∧ a.sv ^ 2 + a.cv ^ 2 = 1 ∧ a.sa ^ 2 + a.ca ^ 2 = 1 := by
  intro a
  obtain ⟨r', hr', hru, -⟩ := C129_reference g kDown axes m hm
  rw [hr] at hr'
  cases hr'
  have hw : wellVector ee tz g entry exit = u := by
    unfold wellVector
    simp only
    rw [if_neg (by rcases htz with rfl | rfl <;> simp)]
    refine unitVector_of hd hu ?_
    intro c
    unfold singleUom
    rw [if_pos he, if_pos he]
    exact hue c
  have hv : vertical none g u r = (degrees (Real.arccos (dot u r)), Real.sqrt (1 - dot u r ^ 2), dot u r) := by
    unfold vertical convertZ
    simp only
    rw [if_pos hg, clamp_id (dot_le_one hu hru), Real.sin_arccos]
  have hle := dot_le_one hu hru
  have ha : a = if degrees (Real.arccos (dot u r)) = 0 then ⟨degrees (Real.arccos (dot u r)), Real.sqrt (1 - dot u r ^ 2), dot u r, 0, 0, 1⟩
      else ⟨degrees (Real.arccos (dot u r)), Real.sqrt (1 - dot u r ^ 2), dot u r, (lateral none g (axes 2) u (some r)).1,
        (lateral none g (axes 2) u (some r)).2.1, (lateral none g (axes 2) u (some r)).2.2⟩ := by
    show angles false faces none none ee tz g kDown axes (m, m) entry exit = _
    unfold angles
    simp only [Bool.false_and, Bool.false_eq_true, if_false, hr, Option.getD_some, Option.getD_none, hw, hv, joined]
  have hs2 := Real.sq_sqrt (show 0 ≤ 1 - dot u r ^ 2 by linarith)
  have hs0 := Real.sqrt_nonneg (1 - dot u r ^ 2)
  by_cases h0 : degrees (Real.arccos (dot u r)) = 0
  · rw [if_pos h0] at ha
    have h1 : dot u r = 1 := by
      have := degrees_zero.mp h0
      rw [Real.arccos_eq_zero] at this
      nlinarith
    rw [ha]
    simp only [h1]
    refine ⟨?_, ?_, ?_, ?_⟩
    · intro c
      have := same_of_dot hu hru (by norm_num) h1 c
      rw [this]; norm_num
    · positivity
    · norm_num
    · norm_num
  · rw [if_neg h0] at ha
    rw [ha]
    refine ⟨?_, hs0, by linarith, lateral_one g (axes 2) u (some r)⟩
    intro c
    by_cases h1 : dot u r ^ 2 = 1
    · have h2 : dot u r = -1 := by
        rcases mul_eq_zero.mp (show (dot u r - 1) * (dot u r + 1) = 0 by linear_combination h1) with h | h
        · exfalso
          apply h0
          rw [show dot u r = 1 by linarith, Real.arccos_one]
          exact degrees_zero.mpr rfl
        · linarith
      have := same_of_dot hu hru (by norm_num) h2 c
      simp only [h2]
      rw [this]
      norm_num
    · obtain ⟨s, p1, p2, p3, p4⟩ := lateral_spec hg hru hu fr h1
      have hs : Real.sqrt (1 - dot u r ^ 2) = s := by
        rw [← p2, Real.sqrt_sq p1.le]
      simp only [hs]
      have q := complete hru fr.unit_e fr.unit_f fr.e_r fr.f_r fr.e_f u c
      rw [← p3, ← p4] at q
      rw [q]; ring

/-- **C129** so they are fit for permeability thickness and inflow (C127, C128) whenever they are calculated, in degrees that match the sines and cosines -/
theorem C129_range (faces : FacePair) (setVertical : Bool) (ee g : CrsU) (tz : Option Bool) (kDown : Bool) (axes : Fin 3 → Vec) (refs : Ref × Ref)
    (entry exit : Vec) :
    let a := angles setVertical faces none none ee tz g kDown axes refs entry exit
    0 ≤ a.anglv ∧ a.anglv ≤ 180 ∧ -180 ≤ a.angla ∧ a.angla ≤ 180 ∧ a.sv = Real.sin (a.anglv * Real.pi / 180) ∧ a.cv = Real.cos (a.anglv * Real.pi / 180) ∧
      a.sa = Real.sin (a.angla * Real.pi / 180) ∧ a.ca = Real.cos (a.angla * Real.pi / 180) ∧ Angles.Proper ⟨a.anglv, a.sv, a.cv, a.sa, a.ca⟩ := by
  intro a
  have hpi := Real.pi_pos
  have hdeg : ∀ x, degrees x * Real.pi / 180 = x := by
    intro x; unfold degrees; field_simp
  have hrange : ∀ x, 0 ≤ x → x ≤ Real.pi → 0 ≤ degrees x ∧ degrees x ≤ 180 := by
    intro x h1 h2
    unfold degrees
    constructor
    · positivity
    · rw [div_le_iff₀ hpi]; nlinarith
  have hcos : ∀ x, Real.cos (Real.arccos (clamp x)) = clamp x := fun x =>
    Real.cos_arccos (by unfold clamp; exact le_min (le_max_right _ _) (by norm_num)) (by unfold clamp; exact min_le_right _ _)
  suffices h : 0 ≤ a.anglv ∧ a.anglv ≤ 180 ∧ -180 ≤ a.angla ∧ a.angla ≤ 180 ∧ a.sv = Real.sin (a.anglv * Real.pi / 180) ∧
      a.cv = Real.cos (a.anglv * Real.pi / 180) ∧ a.sa = Real.sin (a.angla * Real.pi / 180) ∧ a.ca = Real.cos (a.angla * Real.pi / 180) by
    obtain ⟨h1, h2, h3, h4, h5, h6, h7, h8⟩ := h
    refine ⟨h1, h2, h3, h4, h5, h6, h7, h8, ?_, ?_, ?_⟩
    · simp only [h5, h6]; exact Real.sin_sq_add_cos_sq _
    · simp only [h7, h8]; exact Real.sin_sq_add_cos_sq _
    · intro h0
      simp only at h0
      simp only [h5, h6, h0]
      simp
  by_cases hk : (setVertical && throughK faces) = true
  · have ha : a = ⟨0, 0, 1, 0, 0, 1⟩ := by
      show angles setVertical faces none none ee tz g kDown axes refs entry exit = _
      unfold angles
      rw [if_pos hk]
      rfl
    rw [ha]
    norm_num
  · have key : ∃ x y, 0 ≤ x ∧ x ≤ Real.pi ∧ -Real.pi ≤ y ∧ y ≤ Real.pi ∧
        a = ⟨degrees x, Real.sin x, Real.cos x, degrees y, Real.sin y, Real.cos y⟩ := by
      show ∃ x y, _ ∧ _ ∧ _ ∧ _ ∧ angles setVertical faces none none ee tz g kDown axes refs entry exit = _
      unfold angles
      rw [if_neg hk]
      have hv : ∃ x, 0 ≤ x ∧ x ≤ Real.pi ∧ vertical none g (wellVector ee tz g entry exit) ((refVector g kDown axes refs.1).getD (down g)) =
          (degrees x, Real.sin x, Real.cos x) := by
        unfold vertical
        simp only
        exact ⟨_, Real.arccos_nonneg _, Real.arccos_le_pi _, by rw [hcos]⟩
      have hl : ∃ y, -Real.pi ≤ y ∧ y ≤ Real.pi ∧ lateral none g (axes 2) (wellVector ee tz g entry exit) (refVector g kDown axes refs.2) =
          (degrees y, Real.sin y, Real.cos y) := by
        unfold lateral
        simp only
        generalize hq : dot (inPlane (refVector g kDown axes refs.2) (wellVector ee tz g entry exit))
          (inPlane (refVector g kDown axes refs.2) (unitVector (convertZ g (axes 2)))) = q
        have p1 := Real.arccos_nonneg (clamp q)
        have p2 := Real.arccos_le_pi (clamp q)
        split_ifs
        · refine ⟨-Real.arccos (clamp q), by linarith, by linarith, ?_⟩
          rw [Real.sin_neg, Real.cos_neg, hcos]
          simp [degrees, neg_div]
        · exact ⟨Real.arccos (clamp q), by linarith, p2, by rw [hcos]⟩
      obtain ⟨x, x1, x2, hv⟩ := hv
      obtain ⟨y, y1, y2, hl⟩ := hl
      simp only [hv, hl, joined]
      by_cases h0 : degrees x = 0
      · refine ⟨x, 0, x1, x2, by linarith, hpi.le, ?_⟩
        rw [if_pos h0]
        simp [degrees]
      · exact ⟨x, y, x1, x2, y1, y2, by rw [if_neg h0]⟩
    obtain ⟨x, y, h1, h2, h3, h4, ha⟩ := key
    rw [ha]
    simp only [hdeg, and_true]
    obtain ⟨r1, r2⟩ := hrange x h1 h2
    refine ⟨r1, r2, ?_, ?_⟩
    · unfold degrees; rw [le_div_iff₀ hpi]; nlinarith
    · unfold degrees; rw [div_le_iff₀ hpi]; nlinarith

/-- a frame for a vertical reference and a cell dipping along i -/
example : Frame ![0, 0, 1] ![2, 0, 1] ![1, 0, 0] ![0, 1, 0] := by
  refine ⟨by simp [Unit3], by simp [Unit3], by simp [Normal], by simp [Normal], by simp [Normal], ⟨1 / 2, -(1 / 2), by norm_num, ?_⟩, by simp⟩
  intro c
  rcases fin3 c with rfl | rfl | rfl <;> simp

/-- **C129** intervals through top and base of a cell are said to be vertical if that is asked for -/
theorem C129_set_vertical (ee g : CrsU) (tz : Option Bool) (kDown : Bool) (axes : Fin 3 → Vec) (refs : Ref × Ref) (entry exit : Vec) :
    angles true ((0, 0), (0, 1)) none none ee tz g kDown axes refs entry exit = ⟨0, 0, 1, 0, 0, 1⟩ ∧
    angles true ((0, 0), (-1, -1)) none none ee tz g kDown axes refs entry exit = ⟨0, 0, 1, 0, 0, 1⟩ := by
  constructor <;> rfl

/-- **C129** but wells coming up through base and top are not, though the angles are to be nought for any interval through K faces -/
theorem C129_upwards (f : FacePair) : throughK f = true ↔ f.1 = (0, 0) ∧ (f.2 = (0, 1) ∨ f.2 = (-1, -1)) := by
  obtain ⟨⟨a, b⟩, ⟨c, d⟩⟩ := f
  simp [throughK]
  tauto

/-- **C129 fails** for grids with different units for x, y and for z: a vertical well in a grid with x and y in metres and z in feet is said to be inclined,
by the angle of cosine 0.3048 -/
theorem C129_units_violated :
    (angles false ((0, 0), (0, 1)) none none ⟨1, 3048 / 10000, true⟩ (some true) ⟨1, 3048 / 10000, true⟩ true (fun _ => 0) (.zDown, .zDown) ![0, 0, 0] ![0, 0, 1]).cv =
      3048 / 10000 := by
  have hw : wellVector ⟨1, 3048 / 10000, true⟩ (some true) ⟨1, 3048 / 10000, true⟩ ![0, 0, 0] ![0, 0, 1] = ![0, 0, 1] := by
    unfold wellVector
    simp only [Option.isSome_some, ne_eq, not_true_eq_false, and_false, if_false]
    refine unitVector_of one_pos (by simp [Unit3]) ?_
    intro c
    unfold singleUom
    rw [if_neg (by norm_num), if_neg (by norm_num)]
    rcases fin3 c with rfl | rfl | rfl <;> simp
  have hv : vertical none ⟨1, 3048 / 10000, true⟩ ![0, 0, 1] ![0, 0, 1] =
      (degrees (Real.arccos (3048 / 10000)), Real.sin (Real.arccos (3048 / 10000)), 3048 / 10000) := by
    unfold vertical convertZ
    simp only
    rw [if_neg (by norm_num), show dot ![(![0, 0, 1] : Vec) 0, (![0, 0, 1] : Vec) 1, (![0, 0, 1] : Vec) 2 * (3048 / 10000) / 1] ![0, 0, 1] = 3048 / 10000 by
      simp [dot], clamp_id (by norm_num)]
  unfold angles
  simp only [Bool.false_and, Bool.false_eq_true, if_false, hw, refVector, down, if_true, Option.getD_some, joined_cv, hv]

/-- **C129 fails** where face centres are used, which are in the coordinates of the grid, and the trajectory has z in the other direction: a vertical well
going down is said to go up -/
theorem C129_face_centres_violated :
    (angles false ((0, 0), (0, 1)) none none ⟨1, 1, true⟩ (some false) ⟨1, 1, true⟩ true (fun _ => 0) (.zDown, .zDown) ![0, 0, 0] ![0, 0, 1]).cv = -1 ∧
    (angles false ((0, 0), (0, 1)) none none ⟨1, 1, true⟩ (some true) ⟨1, 1, true⟩ true (fun _ => 0) (.zDown, .zDown) ![0, 0, 0] ![0, 0, 1]).cv = 1 := by
  have hw1 : unitVector (fun c => singleUom ⟨1, 1, true⟩ ![0, 0, 1] c - singleUom ⟨1, 1, true⟩ ![0, 0, 0] c) = ![0, 0, 1] := by
    refine unitVector_of one_pos (by simp [Unit3]) ?_
    intro c
    unfold singleUom
    rw [if_pos rfl, if_pos rfl]
    rcases fin3 c with rfl | rfl | rfl <;> simp
  have hv : ∀ x : ℝ, x ^ 2 ≤ 1 → (vertical none ⟨1, 1, true⟩ ![0, 0, x] ![0, 0, 1]).2.2 = x := by
    intro x hx
    unfold vertical convertZ
    simp only
    rw [if_pos trivial, show dot ![0, 0, x] ![0, 0, 1] = x by simp [dot], clamp_id hx]
  constructor
  · unfold angles wellVector
    simp only [Bool.false_and, Bool.false_eq_true, if_false, refVector, down, if_true, Option.getD_some, joined_cv, hw1]
    rw [if_pos (by decide)]
    have := hv (-1) (by norm_num)
    simpa using this
  · unfold angles wellVector
    simp only [Bool.false_and, Bool.false_eq_true, if_false, refVector, down, if_true, Option.getD_some, joined_cv, hw1]
    rw [if_neg (by decide)]
    exact hv 1 (by norm_num)

/-- a step in a coordinate reference system whose axes are turned by a right angle from those of another -/
def quarterTurned (v : Vec) : Vec := ![-v 1, v 0, v 2]

/-- **C129 fails** for trajectories in a coordinate reference system turned from that of the grid: the points are not converted, so a horizontal well along
the axis of the cell is said to be at right angles to it -/
theorem C129_turned_violated (axes : Fin 3 → Vec) (hi : axes 2 = ![1, 0, 0]) :
    (let a := angles false ((2, 0), (2, 1)) none none ⟨1, 1, true⟩ (some true) ⟨1, 1, true⟩ true axes (.zDown, .zDown) ![0, 0, 0] ![1, 0, 0];
      a.cv = 0 ∧ a.ca = 1) ∧
    (let a := angles false ((2, 0), (2, 1)) none none ⟨1, 1, true⟩ (some true) ⟨1, 1, true⟩ true axes (.zDown, .zDown) (quarterTurned ![0, 0, 0])
        (quarterTurned ![1, 0, 0]);
      a.cv = 0 ∧ a.ca = 0) := by
  have fr : Frame ![0, 0, 1] (axes 2) ![1, 0, 0] ![0, 1, 0] := by
    rw [hi]
    refine ⟨by simp [Unit3], by simp [Unit3], by simp [Normal], by simp [Normal], by simp [Normal], ⟨1, 0, by norm_num, ?_⟩, by simp⟩
    intro c
    rcases fin3 c with rfl | rfl | rfl <;> simp
  have key : ∀ (entry exit u : Vec), Unit3 u → (∀ c, exit c - entry c = 1 * u c) →
      let a := angles false ((2, 0), (2, 1)) none none ⟨1, 1, true⟩ (some true) ⟨1, 1, true⟩ true axes (.zDown, .zDown) entry exit
      (u 0 = a.sv * a.ca ∧ u 2 = a.cv) ∧ 0 ≤ a.sv ∧ a.sv ^ 2 + a.cv ^ 2 = 1 := by
    intro entry exit u hu hue a
    obtain ⟨h1, h2, h3, -⟩ := C129_direction_partial ((2, 0), (2, 1)) ⟨1, 1, true⟩ ⟨1, 1, true⟩ (some true) true axes .zDown entry exit u ![1, 0, 0] ![0, 1, 0]
      ![0, 0, 1] 1 rfl rfl (Or.inr rfl) (by simp) one_pos hu hue rfl fr
    refine ⟨⟨?_, ?_⟩, h2, h3⟩
    · have := h1 0
      simpa using this
    · have := h1 2
      simpa using this
  constructor
  · obtain ⟨⟨h0, h2⟩, h3, h4⟩ := key ![0, 0, 0] ![1, 0, 0] ![1, 0, 0] (by simp [Unit3]) (by
      intro c; rcases fin3 c with rfl | rfl | rfl <;> simp)
    intro a
    have hc : a.cv = 0 := by rw [← h2]; simp
    refine ⟨hc, ?_⟩
    have hs : a.sv = 1 := by
      have h5 : a.sv ^ 2 = 1 := by
        have h6 : a.sv ^ 2 + a.cv ^ 2 = 1 := h4
        rw [hc] at h6; linarith
      have h7 : 0 ≤ a.sv := h3
      nlinarith
    have h8 : (1 : ℝ) = a.sv * a.ca := by simpa using h0
    rw [hs] at h8
    linarith
  · obtain ⟨⟨h0, h2⟩, h3, h4⟩ := key (quarterTurned ![0, 0, 0]) (quarterTurned ![1, 0, 0]) ![0, 1, 0] (by simp [Unit3]) (by
      intro c; rcases fin3 c with rfl | rfl | rfl <;> simp [quarterTurned])
    intro a
    have hc : a.cv = 0 := by rw [← h2]; simp
    refine ⟨hc, ?_⟩
    have hs : a.sv = 1 := by
      have h5 : a.sv ^ 2 = 1 := by
        have h6 : a.sv ^ 2 + a.cv ^ 2 = 1 := h4
        rw [hc] at h6; linarith
      have h7 : 0 ≤ a.sv := h3
      nlinarith
    have h8 : (0 : ℝ) = a.sv * a.ca := by simpa using h0
    rw [hs] at h8
    linarith

end Verif.Blocking
