import Verif.Blocking.Kh
import Mathlib.Tactic.Linarith
import Mathlib.Tactic.Ring
import Mathlib.Tactic.FieldSimp
import Mathlib.Tactic.Positivity

/-!
# C127: permeability thickness
-/

namespace Verif.Blocking
open Verif.Py

theorem rbind {α β : Type} (a : α) (f : α → Res β) : ((Except.ok a : Res α) >>= f) = f a := rfl

theorem psqrt_ok {x : ℝ} (h : 0 ≤ x) : psqrt x = .ok (Real.sqrt x) := by
  unfold psqrt
  rw [if_neg (not_lt.mpr h)]

theorem pdiv_ok {x y : ℝ} (h : y ≠ 0) : pdiv x y = .ok (x / y) := by
  unfold pdiv
  rw [if_neg h]

/-! ## specification -/

/-- the square of the permeability across a well in the direction (i, j, k): the determinant of the permeability in the plane normal to it -/
def acrossSq (ki kj kk i j k : ℝ) : ℝ := kj * kk * i ^ 2 + ki * kk * j ^ 2 + ki * kj * k ^ 2

/-- the direction of an interval -/
def Angles.Proper (a : Angles) : Prop := a.sv ^ 2 + a.cv ^ 2 = 1 ∧ a.sa ^ 2 + a.ca ^ 2 = 1 ∧ (a.anglv = 0 → a.sv = 0 ∧ a.cv = 1)

theorem khGeneral_formula (length ki kj kk sv cv sa ca : ℝ) (hl : 0 ≤ length) (hi : 0 < ki) (hj : 0 < kj) (hk : 0 < kk) :
    khGeneral length ki kj kk sv cv sa ca = .ok (length * Real.sqrt (acrossSq ki kj kk (sv * ca) (sv * sa) cv)) := by
  have hp : 0 < ki * kj * kk := by positivity
  have hke : 0 < (ki * kj * kk) ^ (1 / 3 : ℝ) := Real.rpow_pos_of_pos hp _
  have hcube : ((ki * kj * kk) ^ (1 / 3 : ℝ)) ^ 3 = ki * kj * kk := by
    rw [← Real.rpow_natCast, ← Real.rpow_mul hp.le]
    norm_num
  unfold khGeneral pcbrt
  rw [if_neg (not_lt.mpr hp.le), rbind]
  generalize (ki * kj * kk) ^ (1 / 3 : ℝ) = ke at hke hcube
  rw [if_neg hke.ne', pdiv_ok hi.ne', pdiv_ok hj.ne', pdiv_ok hk.ne']
  simp only [rbind]
  rw [psqrt_ok (by positivity), psqrt_ok (by positivity), psqrt_ok (by positivity)]
  simp only [rbind]
  rw [psqrt_ok (by nlinarith [mul_self_nonneg (length * Real.sqrt (ke / ki) * sv * ca), mul_self_nonneg (length * Real.sqrt (ke / kj) * sv * sa),
    mul_self_nonneg (length * Real.sqrt (ke / kk) * cv)])]
  simp only [rbind]
  congr 1
  have si := Real.sq_sqrt (show 0 ≤ ke / ki by positivity)
  have sj := Real.sq_sqrt (show 0 ≤ ke / kj by positivity)
  have sk := Real.sq_sqrt (show 0 ≤ ke / kk by positivity)
  have e1 : length * Real.sqrt (ke / ki) * sv * ca * (length * Real.sqrt (ke / ki) * sv * ca) +
      length * Real.sqrt (ke / kj) * sv * sa * (length * Real.sqrt (ke / kj) * sv * sa) +
      length * Real.sqrt (ke / kk) * cv * (length * Real.sqrt (ke / kk) * cv) =
      (length / ke) ^ 2 * acrossSq ki kj kk (sv * ca) (sv * sa) cv := by
    have : length * Real.sqrt (ke / ki) * sv * ca * (length * Real.sqrt (ke / ki) * sv * ca) +
      length * Real.sqrt (ke / kj) * sv * sa * (length * Real.sqrt (ke / kj) * sv * sa) +
      length * Real.sqrt (ke / kk) * cv * (length * Real.sqrt (ke / kk) * cv) =
      length ^ 2 * ((Real.sqrt (ke / ki)) ^ 2 * (sv * ca) ^ 2 + (Real.sqrt (ke / kj)) ^ 2 * (sv * sa) ^ 2 + (Real.sqrt (ke / kk)) ^ 2 * cv ^ 2) := by
      ring
    rw [this, si, sj, sk, acrossSq]
    have a1 : ke / ki = kj * kk / ke ^ 2 := by field_simp; linarith
    have a2 : ke / kj = ki * kk / ke ^ 2 := by field_simp; linarith
    have a3 : ke / kk = ki * kj / ke ^ 2 := by field_simp; linarith
    rw [a1, a2, a3]
    field_simp
  have ha : 0 ≤ acrossSq ki kj kk (sv * ca) (sv * sa) cv := by unfold acrossSq; positivity
  rw [e1, Real.sqrt_mul (by positivity), Real.sqrt_sq (by positivity)]
  field_simp

/-- **C127** with positive permeabilities the permeability thickness of an interval is its length times the permeability across its direction,
whether or not the shortcuts for vertical intervals or for equal permeabilities are taken -/
theorem C127_across (shortcut isOne : Bool) (length ki kj kk : ℝ) (a : Angles) (ha : a.Proper) (hl : 0 ≤ length) (hi : 0 < ki) (hj : 0 < kj)
    (hk : 0 < kk) (hs : (shortcut && isOne) = true → ki = kj ∧ ki = kk) :
    khFor shortcut isOne length ki (some ki) (some kj) (some kk) a =
      .ok (length * Real.sqrt (acrossSq ki kj kk (a.sv * a.ca) (a.sv * a.sa) a.cv)) := by
  obtain ⟨h1, h2, h3⟩ := ha
  unfold khFor
  by_cases hsc : (shortcut && isOne) = true
  · rw [if_pos hsc]
    obtain ⟨rfl, rfl⟩ := hs hsc
    congr 2
    have : acrossSq ki ki ki (a.sv * a.ca) (a.sv * a.sa) a.cv = ki ^ 2 * (a.sv ^ 2 * (a.sa ^ 2 + a.ca ^ 2) + a.cv ^ 2) := by
      unfold acrossSq; ring
    rw [this, h2, mul_one, h1, mul_one, Real.sqrt_sq hi.le]
  · rw [if_neg hsc]
    simp only
    by_cases hv : a.anglv = 0
    · rw [if_pos hv, psqrt_ok (by positivity), rbind]
      obtain ⟨h4, h5⟩ := h3 hv
      rw [h4, h5]
      congr 3
      unfold acrossSq; ring
    · rw [if_neg hv]
      exact khGeneral_formula _ _ _ _ _ _ _ _ hl hi hj hk

theorem across_bounds {ki kj kk i j k lo hi' : ℝ} (h0 : 0 ≤ lo) (hi : lo ≤ ki ∧ ki ≤ hi') (hj : lo ≤ kj ∧ kj ≤ hi') (hk : lo ≤ kk ∧ kk ≤ hi')
    (hd : i ^ 2 + j ^ 2 + k ^ 2 = 1) : lo ^ 2 ≤ acrossSq ki kj kk i j k ∧ acrossSq ki kj kk i j k ≤ hi' ^ 2 := by
  have b : ∀ {x y : ℝ}, (lo ≤ x ∧ x ≤ hi') → (lo ≤ y ∧ y ≤ hi') → lo ^ 2 ≤ x * y ∧ x * y ≤ hi' ^ 2 := by
    rintro x y ⟨x1, x2⟩ ⟨y1, y2⟩
    constructor
    · nlinarith
    · nlinarith
  have b1 := b hj hk
  have b2 := b hi hk
  have b3 := b hi hj
  unfold acrossSq
  constructor
  · nlinarith [mul_le_mul_of_nonneg_right b1.1 (sq_nonneg i), mul_le_mul_of_nonneg_right b2.1 (sq_nonneg j), mul_le_mul_of_nonneg_right b3.1 (sq_nonneg k)]
  · nlinarith [mul_le_mul_of_nonneg_right b1.2 (sq_nonneg i), mul_le_mul_of_nonneg_right b2.2 (sq_nonneg j), mul_le_mul_of_nonneg_right b3.2 (sq_nonneg k)]

theorem proper_unit {a : Angles} (ha : a.Proper) : (a.sv * a.ca) ^ 2 + (a.sv * a.sa) ^ 2 + a.cv ^ 2 = 1 := by
  obtain ⟨h1, h2, -⟩ := ha
  nlinarith [h1, h2]

/-- **C127** permeability thickness is between those of the least and of the greatest permeability -/
theorem C127_bounds (shortcut isOne : Bool) (length ki kj kk lo hi' r : ℝ) (a : Angles) (ha : a.Proper) (hl : 0 ≤ length) (h0 : 0 < lo)
    (hi : lo ≤ ki ∧ ki ≤ hi') (hj : lo ≤ kj ∧ kj ≤ hi') (hk : lo ≤ kk ∧ kk ≤ hi') (hs : (shortcut && isOne) = true → ki = kj ∧ ki = kk)
    (hr : khFor shortcut isOne length ki (some ki) (some kj) (some kk) a = .ok r) : length * lo ≤ r ∧ r ≤ length * hi' := by
  rw [C127_across shortcut isOne length ki kj kk a ha hl (by linarith [hi.1]) (by linarith [hj.1]) (by linarith [hk.1]) hs] at hr
  cases hr
  obtain ⟨b1, b2⟩ := across_bounds h0.le hi hj hk (proper_unit ha)
  have hh : 0 ≤ hi' := by linarith [hi.1, hi.2]
  constructor
  · exact mul_le_mul_of_nonneg_left (Real.le_sqrt_of_sq_le b1) hl
  · exact mul_le_mul_of_nonneg_left ((Real.sqrt_le_left hh).mpr b2) hl

/-- **C127** permeability thickness does not depend on the signs of the angles -/
theorem C127_signs (shortcut isOne : Bool) (length v : ℝ) (ki kj kk : Option ℝ) (a : Angles) :
    khFor shortcut isOne length v ki kj kk { a with sa := -a.sa } = khFor shortcut isOne length v ki kj kk a := by
  unfold khFor khGeneral
  simp only [mul_neg, neg_mul, neg_neg]
  have : ∀ l c, (do let q ← pdiv c l; let r ← psqrt q; (Except.ok (-(length * r * a.sv * a.sa)) : Res ℝ)) =
      (do let q ← pdiv c l; let r ← psqrt q; (Except.ok (length * r * a.sv * a.sa) : Res ℝ)) >>= fun x => .ok (-x) := by
    intro l c
    cases pdiv c l with
    | error x => rfl
    | ok q =>
      simp only [rbind]
      cases psqrt q <;> rfl
  cases ki <;> cases kj <;> try rfl
  cases kk <;> try rfl
  simp only [this]
  rename_i x y z
  split_ifs <;> try rfl
  cases pcbrt (x * y * z) with
  | error e => rfl
  | ok ke =>
    simp only [rbind]
    split_ifs
    · rfl
    · cases (do let q ← pdiv ke x; let r ← psqrt q; (Except.ok (length * r * a.sv * a.ca) : Res ℝ)) with
      | error e => rfl
      | ok li =>
        simp only [rbind]
        cases (do let q ← pdiv ke y; let r ← psqrt q; (Except.ok (length * r * a.sv * a.sa) : Res ℝ)) with
        | error e => rfl
        | ok lj =>
          simp only [rbind, mul_neg, neg_mul, neg_neg]

/-- **C127** nothing is ever divided by zero, nor the root of a negative number taken, if permeabilities are not negative -/
theorem C127_never_raises (shortcut isOne : Bool) (length v : ℝ) (ki kj kk : Option ℝ) (a : Angles) (hi : ∀ x, ki = some x → 0 ≤ x)
    (hj : ∀ x, kj = some x → 0 ≤ x) (hk : ∀ x, kk = some x → 0 ≤ x) : ∃ r, khFor shortcut isOne length v ki kj kk a = .ok r := by
  unfold khFor
  by_cases hs : (shortcut && isOne) = true
  · rw [if_pos hs]; exact ⟨_, rfl⟩
  rw [if_neg hs]
  cases ki with
  | none => exact ⟨0, rfl⟩
  | some x =>
    cases kj with
    | none => exact ⟨0, rfl⟩
    | some y =>
      have h1 := hi x rfl
      have h2 := hj y rfl
      simp only
      split_ifs with hv
      · rw [psqrt_ok (mul_nonneg h1 h2)]
        exact ⟨_, rfl⟩
      · cases kk with
        | none => exact ⟨0, rfl⟩
        | some z =>
          have h3 := hk z rfl
          simp only
          by_cases h0 : 0 < x ∧ 0 < y ∧ 0 < z
          · unfold khGeneral
            have hp : 0 < x * y * z := mul_pos (mul_pos h0.1 h0.2.1) h0.2.2
            have hke : 0 < (x * y * z) ^ (1 / 3 : ℝ) := Real.rpow_pos_of_pos hp _
            unfold pcbrt
            rw [if_neg (not_lt.mpr hp.le), rbind, if_neg hke.ne']
            rw [pdiv_ok h0.1.ne', pdiv_ok h0.2.1.ne', pdiv_ok h0.2.2.ne']
            simp only [rbind]
            rw [psqrt_ok (by positivity), psqrt_ok (by positivity), psqrt_ok (by positivity)]
            simp only [rbind]
            rw [psqrt_ok (add_nonneg (add_nonneg (mul_self_nonneg _) (mul_self_nonneg _)) (mul_self_nonneg _))]
            exact ⟨_, rfl⟩
          · refine ⟨0, ?_⟩
            have hz : x * y * z = 0 := by
              by_contra hne
              apply h0
              refine ⟨lt_of_le_of_ne h1 ?_, lt_of_le_of_ne h2 ?_, lt_of_le_of_ne h3 ?_⟩ <;>
                (rintro rfl; simp at hne)
            unfold khGeneral pcbrt
            rw [hz, if_neg (lt_irrefl 0), rbind, Real.zero_rpow (by norm_num), if_pos rfl]

/-- **C127** an interval perforated in part: where perforations are in pay first, net thickness is the lesser of perforated and net -/
theorem C127_preferential (ppf ntg : ℝ) (hp : 0 < ppf) (isOne : Bool) (h : isOne = false) : ppf * ntgUsed true isOne ppf ntg = min ppf ntg := by
  subst h
  unfold ntgUsed
  simp only [Bool.not_false, Bool.and_self, if_true]
  split_ifs with h
  · rw [mul_one, min_eq_left h]
  · rw [min_eq_right (le_of_lt (not_le.mp h))]
    field_simp

/-- **C127** a vertical interval of length `gross`, perforated over the fraction `ppf`, with permeabilities in the three directions: permeability
thickness is horizontal permeability times net thickness -/
theorem C127_vertical_net {U : Type} [DecidableEq U] (values : U → Option ℝ) (i j k : U) (ki kj : ℝ) (hi : values i = some ki) (hj : values j = some kj)
    (hi0 : 0 ≤ ki) (hj0 : 0 ≤ kj) (ntg ppf gross : ℝ) (h0 : 0 ≤ ntg) (hn : ntgIsOne (some ntg) = false) (hp : 0 < ppf)
    (a : Angles) (ha : a.anglv = 0) :
    kh values (some ntg) true ppf i (some j) (some k) (gross * ppf) a = .ok (Real.sqrt (ki * kj) * (gross * min ppf ntg)) := by
  have hu : 0 ≤ ntgUsed true false ppf ntg := by
    unfold ntgUsed
    simp only [Bool.not_false, Bool.and_self, if_true]
    split_ifs
    · norm_num
    · positivity
  unfold kh verifyPermUuids directionalPerm
  simp only [hn, Bool.and_false, Bool.false_eq_true, if_false, propValue, hi, hj, Option.getD_some, reduceCtorEq, and_self, Option.map_some, rbind]
  simp only [khFor, Bool.and_false, Bool.false_eq_true, if_false, ha, if_true]
  rw [psqrt_ok (by positivity), rbind]
  congr 1
  have : ki * ntgUsed true false ppf ntg * (kj * ntgUsed true false ppf ntg) = ki * kj * (ntgUsed true false ppf ntg) ^ 2 := by ring
  rw [this, Real.sqrt_mul (by positivity), Real.sqrt_sq hu, ← C127_preferential ppf ntg hp false rfl]
  ring

/-- **C127** permeabilities named for the three directions, with no net to gross ratio: each is used in its own direction -/
theorem C127_three {U : Type} [DecidableEq U] (values : U → Option ℝ) (i j k : U) (ki kj kk : ℝ) (hi : values i = some ki) (hj : values j = some kj)
    (hk : values k = some kk) (hi0 : 0 < ki) (hj0 : 0 < kj) (hk0 : 0 < kk) (preferential : Bool) (ppf length : ℝ) (hl : 0 ≤ length) (a : Angles)
    (ha : a.Proper) : kh values none preferential ppf i (some j) (some k) length a =
      .ok (length * Real.sqrt (acrossSq ki kj kk (a.sv * a.ca) (a.sv * a.sa) a.cv)) := by
  unfold kh verifyPermUuids directionalPerm
  simp only [reduceCtorEq, and_self, if_false, Option.getD_some, ntgIsOne, Bool.and_true, Option.getD_none]
  by_cases h : (decide (i = j) && decide (i = k)) = true
  · obtain ⟨rfl, rfl⟩ : i = j ∧ i = k := by simpa using h
    obtain rfl : ki = kj := by rw [hi] at hj; exact Option.some.inj hj
    obtain rfl : ki = kk := by rw [hi] at hk; exact Option.some.inj hk
    simp only [decide_true, Bool.and_self, if_true, hi, Option.getD_some, rbind]
    exact C127_across _ _ _ _ _ _ _ ha hl hi0 hi0 hi0 (fun _ => ⟨rfl, rfl⟩)
  · have hu : ntgUsed preferential true ppf 1 = 1 := by simp [ntgUsed]
    rw [if_neg h]
    simp only [hu, propValue, hi, hj, hk, Option.map_some, mul_one, Option.getD_some, rbind]
    exact C127_across _ _ _ _ _ _ _ ha hl hi0 hj0 hk0 (fun h' => absurd (by simpa using h') h)

/-- **C127** the same where the net to gross ratio is not one and perforations are not in pay first: the ratio scales permeability along i and j,
and not that along k -/
theorem C127_three_net {U : Type} [DecidableEq U] (values : U → Option ℝ) (i j k : U) (ki kj kk : ℝ) (hi : values i = some ki) (hj : values j = some kj)
    (hk : values k = some kk) (hi0 : 0 < ki) (hj0 : 0 < kj) (hk0 : 0 < kk) (ntg : ℝ) (h0 : 0 < ntg) (hn : ntgIsOne (some ntg) = false)
    (ppf length : ℝ) (hl : 0 ≤ length) (a : Angles) (ha : a.Proper) : kh values (some ntg) false ppf i (some j) (some k) length a =
      .ok (length * Real.sqrt (acrossSq (ki * ntg) (kj * ntg) kk (a.sv * a.ca) (a.sv * a.sa) a.cv)) := by
  unfold kh verifyPermUuids directionalPerm
  simp only [reduceCtorEq, and_self, if_false, Option.getD_some, hn, Bool.and_false, Bool.false_eq_true, ntgUsed, Bool.false_and, propValue, hi, hj, hk,
    Option.map_some, rbind]
  rw [← C127_across false false length (ki * ntg) (kj * ntg) kk a ha hl (by positivity) (by positivity) hk0 (by simp)]
  simp [khFor]

/-- **C127 fails** if only the permeability in the direction of i is given, which is then to stand for all, and the net to gross ratio is not one:
an assertion fails -/
theorem C127_only_one_violated {U : Type} [DecidableEq U] (values : U → Option ℝ) (i : U) (ntg : ℝ) (hn : ntgIsOne (some ntg) = false) (preferential : Bool)
    (ppf length : ℝ) (a : Angles) : kh values (some ntg) preferential ppf i none none length a = .error .assertion := by
  unfold kh verifyPermUuids directionalPerm
  simp only [hn, and_self, if_true, Bool.and_false, Bool.false_eq_true, if_false, propValue]
  rfl

/-- naming that permeability for j too does give the result: the lone assertion is not for want of data -/
theorem C127_named_twice {U : Type} [DecidableEq U] (values : U → Option ℝ) (i : U) (v : ℝ) (hv : values i = some v) (h0 : 0 < v) (ntg : ℝ) (h1 : 0 < ntg)
    (length : ℝ) (a : Angles) (hz : a.anglv = 0) :
    kh values (some ntg) false 1 i (some i) none length a = .ok (length * (v * if ntgIsOne (some ntg) then 1 else ntg)) := by
  unfold kh verifyPermUuids directionalPerm
  cases hn : ntgIsOne (some ntg) with
  | true => simp [hv, khFor, rbind]
  | false =>
    simp only [reduceCtorEq, false_and, if_false, Option.getD_some, Option.getD_none, decide_true, Bool.and_self, Bool.and_false, Bool.false_eq_true,
      propValue, hv, Option.map_some, rbind, khFor, hz, if_true, ntgUsed, Bool.false_and]
    rw [psqrt_ok (by positivity), rbind, ← pow_two, Real.sqrt_sq (by positivity)]

/-- **C127 fails** for cells with no vertical permeability: however little an interval is off the vertical, its permeability thickness is nought,
while the permeability across it is hardly less than that of a vertical one -/
theorem C127_no_vertical_violated (length k : ℝ) (hl : 0 < length) (hk : 0 < k) (a : Angles) (ha : a.anglv ≠ 0) (hc : a.cv ≠ 0) :
    khFor false true length k (some k) (some k) (some 0) a = .ok 0 ∧
    0 < length * Real.sqrt (acrossSq k k 0 (a.sv * a.ca) (a.sv * a.sa) a.cv) := by
  constructor
  · simp only [khFor, Bool.false_and, Bool.false_eq_true, if_false, ha, khGeneral, pcbrt, mul_zero, lt_irrefl, rbind]
    rw [Real.zero_rpow (by norm_num), if_pos rfl]
  · have : acrossSq k k 0 (a.sv * a.ca) (a.sv * a.sa) a.cv = (k * a.cv) ^ 2 := by unfold acrossSq; ring
    rw [this, Real.sqrt_sq_eq_abs]
    have : 0 < |k * a.cv| := abs_pos.mpr (mul_ne_zero hk.ne' hc)
    positivity

/-! ## the hypotheses can be met -/

/-- an interval inclined by thirty degrees or so -/
noncomputable def slant : Angles := ⟨1, 3 / 5, 4 / 5, 4 / 5, 3 / 5⟩

example : slant.Proper := ⟨by norm_num [slant], by norm_num [slant], by norm_num [slant]⟩

example : khFor false true 10 4 (some 4) (some 4) (some 4) slant = .ok 40 := by
  rw [C127_across false true 10 4 4 4 slant ⟨by norm_num [slant], by norm_num [slant], by norm_num [slant]⟩ (by norm_num) (by norm_num) (by norm_num)
    (by norm_num) (by simp)]
  have : acrossSq 4 4 4 (slant.sv * slant.ca) (slant.sv * slant.sa) slant.cv = 4 ^ 2 := by norm_num [acrossSq, slant]
  rw [this, Real.sqrt_sq (by norm_num)]
  norm_num

/-- permeabilities 1, 4 and 9, along a well in the direction of i -/
example (f : ℕ → Option ℝ) (h : f 0 = some 1 ∧ f 1 = some 4 ∧ f 2 = some 9) : kh f none true (1 / 2) 0 (some 1) (some 2) 10 ⟨1, 1, 0, 0, 1⟩ = .ok 60 := by
  rw [C127_three f 0 1 2 1 4 9 h.1 h.2.1 h.2.2 (by norm_num) (by norm_num) (by norm_num) _ _ _ (by norm_num) _
    ⟨by norm_num, by norm_num, by norm_num⟩]
  have : acrossSq 1 4 9 ((1 : ℝ) * 1) (1 * 0) 0 = 6 ^ 2 := by norm_num [acrossSq]
  rw [this, Real.sqrt_sq (by norm_num)]
  norm_num

example : ntgIsOne (some (1 / 2)) = false := by
  simp only [ntgIsOne, decide_eq_false_iff_not, not_le]
  norm_num [abs_of_nonneg]

end Verif.Blocking
