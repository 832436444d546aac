import Verif.Transmit.HalfCell
import Verif.Plane.PropsMeasure
import Verif.Box.Lemmas
import Mathlib.Tactic.FinCases

/-!
# Properties: half cell transmissibilities (C115)
-/

namespace Verif.Transmit
open Verif.Py Verif.Plane Verif.Rotate Verif.Wells.Survey

noncomputable section

/-! ## Specification -/

/-- the corners of a cell: base (or top), plus J (or minus) side, plus I (or minus) side -/
abbrev Corners := Bool → Bool → Bool → V3

/-- corners of the face of a cell, in order around the face -/
def faceCorners (c : Corners) (axis : Axis) (plus : Bool) : V3 × V3 × V3 × V3 :=
  match axis with
  | .K => (c plus false false, c plus false true, c plus true true, c plus true false)
  | .J => (c false plus false, c false plus true, c true plus true, c true plus false)
  | .I => (c false false plus, c false true plus, c true true plus, c true false plus)

/-- the centre of a face -/
def faceCentre (c : Corners) (axis : Axis) (plus : Bool) : V3 :=
  let f := faceCorners c axis plus
  (1 / 4 : ℝ) • (f.1 + f.2.1 + f.2.2.1 + f.2.2.2)

/-- from the centre of the cell to the face: half way from the centre of the minus face to that of the plus face -/
def halfVector (c : Corners) (axis : Axis) : V3 := (1 / 2 : ℝ) • (faceCentre c axis true - faceCentre c axis false)

/-- the area of a face seen along each of the axes x, y and z, as two triangles -/
def shadow (c : Corners) (axis : Axis) (plus : Bool) : V3 := fun xyz =>
  let f := faceCorners c axis plus
  |cross3 (f.2.1 - f.1) (f.2.2.1 - f.1) xyz| / 2 + |cross3 (f.2.2.1 - f.1) (f.2.2.2 - f.1) xyz| / 2

/-- the corner points of a cell of a grid -/
def cornersOf (g : Points) (gaps : Option (Nat → Nat)) (k j i : Nat) : Corners := fun kp jp ip =>
  let kk := (match gaps with | some raw => raw k | none => k) + kp.toNat
  match g with
  | .plain p => p kk (j + jp.toNat) (i + ip.toNat)
  | .split p pfc => p kk (pfc j i jp.toNat ip.toNat)

theorem projectedTriArea_eq (a b c : V3) : projectedTriArea a b c = fun x => |cross3 (b - a) (c - a) x| / 2 := by
  funext x
  unfold projectedTriArea
  refine heron_of_squares ?_ (abs_nonneg _)
  rw [abs_mul_abs_self]
  have h : ∀ v : V3, ∀ x y : Fin 3, Real.sqrt (v x * v x + v y * v y) * Real.sqrt (v x * v x + v y * v y) = v x * v x + v y * v y := by
    intro v x y
    exact Real.mul_self_sqrt (by nlinarith [mul_self_nonneg (v x), mul_self_nonneg (v y)])
  simp only [h]
  fin_cases x <;> simp [cross3] <;> ring

theorem dot3_self (h : V3) : dot3 h h = length h * length h := by rw [length_mul]; rfl

theorem length_abs (h : V3) : dot3 (fun x => |h x|) (fun x => |h x|) = length h * length h := by
  unfold dot3; simp only [abs_mul_abs_self]; rw [length_mul]

theorem small_iff {h : V3} {tol : ℝ} (ht : 0 ≤ tol) : length h * length h < tol * tol ↔ length h < tol := by
  constructor
  · intro hh; by_contra hn; have := mul_self_le_mul_self ht (not_lt.1 hn); linarith
  · intro hh; exact mul_self_lt_mul_self (Plane.length_nonneg h) hh

/-- the value for a face in the terms of the specification -/
def halfT (darcy tol perm ntg : ℝ) (c : Corners) (axis : Axis) (plus : Bool) : Option ℝ :=
  if length (halfVector c axis) < tol then none
  else some |darcy * (perm * (|halfVector c axis 0| * shadow c axis plus 0 + |halfVector c axis 1| * shadow c axis plus 1 +
    |halfVector c axis 2| * shadow c axis plus 2) / (length (halfVector c axis) * length (halfVector c axis)) * ntg)|

theorem axisT_eq {darcy tol perm : ℝ} (ht : 0 ≤ tol) (ntg : Option ℝ) (c : Corners) (axis : Axis) (v : V3 × V3 × V3) (plus : Bool)
    (h1 : v.1 = fun x => |halfVector c axis x|) (h2 : v.2.1 = shadow c axis false) (h3 : v.2.2 = shadow c axis true) :
    axisT darcy tol perm ntg v plus = halfT darcy tol perm (ntg.getD 1) c axis plus := by
  unfold axisT faceT halfT
  rw [h1, length_abs]
  simp only [small_iff ht]
  have e : (if plus = true then v.2.2 else v.2.1) = shadow c axis plus := by cases plus <;> simp [h2, h3]
  rw [e]
  split_ifs
  · rfl
  · cases ntg <;> simp [dot3]

theorem halfAxis_eq (a b c d w : V3) (h : ∀ x, a x + b x + c x + d x = 8 * w x) : halfAxis a b c d = fun x => |w x| := by
  funext x
  unfold halfAxis
  rw [h, abs_mul, abs_of_pos (by norm_num : (0 : ℝ) < 8)]
  ring

/-- **C115** — for each cell and face the value is that of the formula: Darcy constant, permeability and (not for K faces) net to
gross, times the projected areas of the face along the vector from the centre of the cell, over the square of its length; there
is no value where this vector is shorter than the tolerance.  Only the corner points of the cell matter, with or without split
pillars, and with K gaps if there are split pillars. -/
theorem C115_value (g : Points) (gaps : Option (Nat → Nat)) (perm : Axis → CellArray) (ntg : Option CellArray) (darcy : ℝ) {tol : ℝ} (ht : 0 ≤ tol)
    (hg : gaps = none ∨ ∃ p pfc, g = .split p pfc) :
    ∃ r, halfCellIrregular g gaps perm ntg darcy tol = .ok r ∧ ∀ k j i plus,
      r k j i .K plus = halfT darcy tol (perm .K k j i) 1 (cornersOf g gaps k j i) .K plus ∧
      ∀ axis, axis ≠ .K → r k j i axis plus = halfT darcy tol (perm axis k j i) ((ntg.map fun n => n k j i).getD 1) (cornersOf g gaps k j i) axis plus := by
  cases g with
  | plain p =>
    have hgaps : gaps = none := by
      rcases hg with h | ⟨p', pfc, h⟩
      · exact h
      · cases h
    subst hgaps
    refine ⟨_, rfl, ?_⟩
    intro k j i plus
    refine ⟨?_, ?_⟩
    · refine axisT_eq ht none _ .K _ plus ?_ ?_ ?_
      · refine halfAxis_eq _ _ _ _ _ fun x => ?_
        simp [halfVector, faceCentre, faceCorners, cornersOf]; ring
      · simp only [plainK, projectedTriArea_eq]; rfl
      · simp only [plainK, projectedTriArea_eq]; rfl
    · intro axis h
      cases axis
      · exact absurd rfl h
      · refine axisT_eq ht _ _ .J _ plus ?_ ?_ ?_
        · refine halfAxis_eq _ _ _ _ _ fun x => ?_
          simp [halfVector, faceCentre, faceCorners, cornersOf]; ring
        · simp only [plainJ, projectedTriArea_eq]; rfl
        · simp only [plainJ, projectedTriArea_eq]; rfl
      · refine axisT_eq ht _ _ .I _ plus ?_ ?_ ?_
        · refine halfAxis_eq _ _ _ _ _ fun x => ?_
          simp [halfVector, faceCentre, faceCorners, cornersOf]; ring
        · simp only [plainI, projectedTriArea_eq]; rfl
        · simp only [plainI, projectedTriArea_eq]; rfl
  | split p pfc =>
    cases gaps with
    | none =>
      refine ⟨_, rfl, ?_⟩
      intro k j i plus
      refine ⟨?_, ?_⟩
      · refine axisT_eq ht none _ .K _ plus ?_ ?_ ?_
        · refine halfAxis_eq _ _ _ _ _ fun x => ?_
          simp [halfVector, faceCentre, faceCorners, cornersOf]; ring
        · simp only [splitK, projectedTriArea_eq]; rfl
        · simp only [splitK, projectedTriArea_eq]; rfl
      · intro axis h
        cases axis
        · exact absurd rfl h
        · refine axisT_eq ht _ _ .J _ plus ?_ ?_ ?_
          · refine halfAxis_eq _ _ _ _ _ fun x => ?_
            simp [halfVector, faceCentre, faceCorners, cornersOf]; ring
          · simp only [splitJ, projectedTriArea_eq]; rfl
          · simp only [splitJ, projectedTriArea_eq]; rfl
        · refine axisT_eq ht _ _ .I _ plus ?_ ?_ ?_
          · refine halfAxis_eq _ _ _ _ _ fun x => ?_
            simp [halfVector, faceCentre, faceCorners, cornersOf]; ring
          · simp only [splitI, projectedTriArea_eq]; rfl
          · simp only [splitI, projectedTriArea_eq]; rfl
    | some raw =>
      refine ⟨_, rfl, ?_⟩
      intro k j i plus
      refine ⟨?_, ?_⟩
      · refine axisT_eq ht none _ .K _ plus ?_ ?_ ?_
        · refine halfAxis_eq _ _ _ _ _ fun x => ?_
          simp [halfVector, faceCentre, faceCorners, cornersOf]; ring
        · simp only [splitK, projectedTriArea_eq]; rfl
        · simp only [splitK, projectedTriArea_eq]; rfl
      · intro axis h
        cases axis
        · exact absurd rfl h
        · refine axisT_eq ht _ _ .J _ plus ?_ ?_ ?_
          · refine halfAxis_eq _ _ _ _ _ fun x => ?_
            simp [halfVector, faceCentre, faceCorners, cornersOf]; ring
          · simp only [splitJ, projectedTriArea_eq]; rfl
          · simp only [splitJ, projectedTriArea_eq]; rfl
        · refine axisT_eq ht _ _ .I _ plus ?_ ?_ ?_
          · refine halfAxis_eq _ _ _ _ _ fun x => ?_
            simp [halfVector, faceCentre, faceCorners, cornersOf]; ring
          · simp only [splitI, projectedTriArea_eq]; rfl
          · simp only [splitI, projectedTriArea_eq]; rfl

/-- **C115** — a grid with K gaps and no split pillars raises AssertionError whatever its points -/
theorem C115_gaps_violated (p : Nat → Nat → Nat → V3) (raw : Nat → Nat) (perm : Axis → CellArray) (ntg : Option CellArray) (darcy tol : ℝ) :
    halfCellIrregular (.plain p) (some raw) perm ntg darcy tol = .error .assertion := rfl

/-- the cell is a box: its edges along each axis are the same vector, and these are at right angles -/
structure IsBox (c : Corners) (d : Axis → V3) : Prop where
  k : ∀ jp ip, c true jp ip - c false jp ip = d .K
  j : ∀ kp ip, c kp true ip - c kp false ip = d .J
  i : ∀ kp jp, c kp jp true - c kp jp false = d .I
  kj : dot3 (d .K) (d .J) = 0
  ji : dot3 (d .J) (d .I) = 0
  ik : dot3 (d .I) (d .K) = 0

/-- at right angles to both, the third vector is along the vector product -/
theorem cross_parallel {u v w : V3} (h1 : dot3 u v = 0) (h2 : dot3 v w = 0) (h3 : dot3 w u = 0) (hu : 0 < length u) :
    |u 0| * |cross3 v w 0| + |u 1| * |cross3 v w 1| + |u 2| * |cross3 v w 2| = length u * (length v * length w) := by
  -- u × (v × w) = 0
  have hu2 : 0 < length u * length u := mul_pos hu hu
  have lu := length_mul u
  have key : ∀ x : Fin 3, cross3 v w x * (length u * length u) = (dot3 u (cross3 v w)) * u x := by
    intro x
    rw [lu]
    simp only [dot3] at h1 h2 h3 ⊢
    fin_cases x <;> simp only [cross3, Matrix.cons_val_zero, Matrix.cons_val_one, Matrix.cons_val, Fin.zero_eta, Fin.mk_one, Fin.reduceFinMk]
    · linear_combination (u 1 * w 2 - u 2 * w 1) * h1 - (u 1 * v 2 - u 2 * v 1) * h3
    · linear_combination (u 2 * w 0 - u 0 * w 2) * h1 - (u 2 * v 0 - u 0 * v 2) * h3
    · linear_combination (u 0 * w 1 - u 1 * w 0) * h1 - (u 0 * v 1 - u 1 * v 0) * h3
  set s := dot3 u (cross3 v w) with hs
  -- |v × w| = |v| |w|
  have lag : length (cross3 v w) * length (cross3 v w) = (length v * length w) * (length v * length w) := by
    have a1 := length_mul v
    have a2 := length_mul w
    have a3 := length_mul (cross3 v w)
    rw [a3, show (length v * length w) * (length v * length w) = (length v * length v) * (length w * length w) by ring, a1, a2]
    simp only [dot3] at h2
    simp only [cross3, Matrix.cons_val_zero, Matrix.cons_val_one, Matrix.cons_val]
    linear_combination (-(v 0 * w 0 + v 1 * w 1 + v 2 * w 2)) * h2
  have lagl : length (cross3 v w) = length v * length w :=
    (mul_self_inj (Plane.length_nonneg _) (mul_nonneg (Plane.length_nonneg _) (Plane.length_nonneg _))).1 lag
  have ex : ∀ x : Fin 3, |u x| * |cross3 v w x| = |s| / (length u * length u) * (u x * u x) := by
    intro x
    have e : cross3 v w x = s * u x / (length u * length u) := by rw [eq_div_iff hu2.ne', key x]
    rw [e, abs_div, abs_mul, abs_of_pos hu2, ← abs_mul_abs_self (u x)]
    field_simp
  rw [ex, ex, ex, ← mul_add, ← mul_add, ← lu, div_mul_cancel₀ _ hu2.ne', ← lagl]
  have e2 : length (cross3 v w) * (length u * length u) = |s| * length u := by
    have : (length (cross3 v w) * (length u * length u)) * (length (cross3 v w) * (length u * length u)) = (|s| * length u) * (|s| * length u) := by
      rw [show (|s| * length u) * (|s| * length u) = (|s| * |s|) * (length u * length u) by ring, abs_mul_abs_self]
      rw [show (length (cross3 v w) * (length u * length u)) * (length (cross3 v w) * (length u * length u)) =
        (length (cross3 v w) * length (cross3 v w)) * (length u * length u) * (length u * length u) by ring, length_mul (cross3 v w)]
      have k0 := key 0
      have k1 := key 1
      have k2 := key 2
      calc (cross3 v w 0 * cross3 v w 0 + cross3 v w 1 * cross3 v w 1 + cross3 v w 2 * cross3 v w 2) * (length u * length u) * (length u * length u)
          = (cross3 v w 0 * (length u * length u)) * (cross3 v w 0 * (length u * length u)) +
            (cross3 v w 1 * (length u * length u)) * (cross3 v w 1 * (length u * length u)) +
            (cross3 v w 2 * (length u * length u)) * (cross3 v w 2 * (length u * length u)) := by ring
        _ = s * s * (u 0 * u 0 + u 1 * u 1 + u 2 * u 2) := by rw [k0, k1, k2]; ring
        _ = s * s * (length u * length u) := by rw [lu]
    exact (mul_self_inj (mul_nonneg (Plane.length_nonneg _) hu2.le) (mul_nonneg (abs_nonneg _) hu.le)).1 this
  have : length u * length (cross3 v w) * length u = |s| * length u := by rw [← e2]; ring
  exact (mul_right_cancel₀ hu.ne' this).symm

/-- the other two axes -/
def others : Axis → Axis × Axis
  | .K => (.J, .I)
  | .J => (.I, .K)
  | .I => (.K, .J)

theorem box_half {c : Corners} {d : Axis → V3} (h : IsBox c d) (axis : Axis) : halfVector c axis = (1 / 2 : ℝ) • d axis := by
  funext x
  have hk := fun jp ip => congrFun (h.k jp ip) x
  have hj := fun kp ip => congrFun (h.j kp ip) x
  have hi := fun kp jp => congrFun (h.i kp jp) x
  simp only [Pi.sub_apply] at hk hj hi
  cases axis <;> simp only [halfVector, faceCentre, faceCorners, Pi.smul_apply, Pi.sub_apply, Pi.add_apply, smul_eq_mul]
  · linarith [hk false false, hk false true, hk true false, hk true true]
  · linarith [hj false false, hj false true, hj true false, hj true true]
  · linarith [hi false false, hi false true, hi true false, hi true true]

theorem cross3_comm_abs (u v : V3) (x : Fin 3) : |cross3 u v x| = |cross3 v u x| := by
  rw [← abs_neg]
  congr 1
  fin_cases x <;> simp [cross3] <;> ring

theorem box_shadow {c : Corners} {d : Axis → V3} (h : IsBox c d) (axis : Axis) (plus : Bool) (x : Fin 3) :
    shadow c axis plus x = |cross3 (d (others axis).1) (d (others axis).2) x| := by
  have hk : ∀ jp ip, c true jp ip = c false jp ip + d .K := fun jp ip => by rw [← h.k jp ip]; abel
  have hj : ∀ kp ip, c kp true ip = c kp false ip + d .J := fun kp ip => by rw [← h.j kp ip]; abel
  have hi : ∀ kp jp, c kp jp true = c kp jp false + d .I := fun kp jp => by rw [← h.i kp jp]; abel
  -- two triangles with the same vector product up to sign
  have par : ∀ (a u v : V3), |cross3 (a + u - a) (a + u + v - a) x| / 2 + |cross3 (a + u + v - a) (a + v - a) x| / 2 = |cross3 u v x| := by
    intro a u v
    have e1 : cross3 (a + u - a) (a + u + v - a) x = cross3 u v x := by
      fin_cases x <;> simp [cross3] <;> ring
    have e2 : cross3 (a + u + v - a) (a + v - a) x = cross3 u v x := by
      fin_cases x <;> simp [cross3] <;> ring
    rw [e1, e2]; ring
  unfold shadow
  cases axis <;> simp only [faceCorners, others]
  · have e1 : c plus true true = c plus false false + d .I + d .J := by rw [hj, hi]
    rw [e1, hi plus false, hj plus false, par, cross3_comm_abs]
  · have e1 : c true plus true = c false plus false + d .I + d .K := by rw [hk, hi]
    rw [e1, hi false plus, hk plus false, par]
  · have e1 : c true true plus = c false false plus + d .J + d .K := by rw [hk, hj]
    rw [e1, hj false plus, hk false plus, par, cross3_comm_abs]

theorem length_smul_half (v : V3) : length ((1 / 2 : ℝ) • v) = 1 / 2 * length v := by
  have h := length_mul ((1 / 2 : ℝ) • v)
  have h2 := length_mul v
  simp only [Pi.smul_apply, smul_eq_mul] at h
  refine (mul_self_inj (Plane.length_nonneg _) (mul_nonneg (by norm_num) (Plane.length_nonneg _))).1 ?_
  rw [h]; linear_combination (-1 / 4 : ℝ) * h2

/-- **C115** — for a cell that is a box the value of either face of an axis is the Darcy constant times permeability times net to
gross (not for K) times area of the face over half the length of the cell along the axis, however the box lies with respect to the
coordinate axes. -/
theorem C115_box_partial {darcy tol perm ntg : ℝ} {c : Corners} {d : Axis → V3} (h : IsBox c d) (axis : Axis) (plus : Bool)
    (hl : 0 < length (d axis)) (ht : tol ≤ length (d axis) / 2) :
    halfT darcy tol perm ntg c axis plus =
      some (|darcy * perm * ntg| * (length (d (others axis).1) * length (d (others axis).2)) / (length (d axis) / 2)) := by
  unfold halfT
  rw [box_half h, length_smul_half]
  rw [if_neg (by linarith)]
  simp only [Pi.smul_apply, smul_eq_mul, box_shadow h]
  have perp : dot3 (d axis) (d (others axis).1) = 0 ∧ dot3 (d (others axis).1) (d (others axis).2) = 0 ∧ dot3 (d (others axis).2) (d axis) = 0 := by
    cases axis
    · exact ⟨h.kj, h.ji, h.ik⟩
    · exact ⟨h.ji, h.ik, h.kj⟩
    · exact ⟨h.ik, h.kj, h.ji⟩
  have e := cross_parallel perp.1 perp.2.1 perp.2.2 hl
  set P := length (d (others axis).1) * length (d (others axis).2) with hP
  have hP0 : 0 ≤ P := mul_nonneg (Plane.length_nonneg _) (Plane.length_nonneg _)
  have e2 : |1 / 2 * d axis 0| * |cross3 (d (others axis).1) (d (others axis).2) 0| + |1 / 2 * d axis 1| * |cross3 (d (others axis).1) (d (others axis).2) 1| +
      |1 / 2 * d axis 2| * |cross3 (d (others axis).1) (d (others axis).2) 2| = 1 / 2 * (length (d axis) * P) := by
    rw [← e]
    simp only [abs_mul]
    rw [abs_of_pos (by norm_num : (0 : ℝ) < 1 / 2)]
    ring
  rw [e2]
  congr 1
  rw [show darcy * (perm * (1 / 2 * (length (d axis) * P)) / (1 / 2 * length (d axis) * (1 / 2 * length (d axis))) * ntg) =
    darcy * perm * ntg * (P / (length (d axis) / 2)) by field_simp]
  rw [abs_mul, abs_of_nonneg (div_nonneg hP0 (by linarith))]
  ring

/-- **C115** — a regular grid with axes at right angles has the same values by the function for regular grids as by that for any
grid, for permeabilities, net to gross ratios and Darcy constant that are not negative. -/
theorem C115_regular_partial {d : Axis → V3} {perm : Axis → CellArray} {ntg : Option CellArray} {darcy tol : ℝ} {p : Nat → Nat → Nat → V3}
    (hp : ∀ k j i, p k j i = p 0 0 0 + (k : ℝ) • d .K + (j : ℝ) • d .J + (i : ℝ) • d .I)
    (kj : dot3 (d .K) (d .J) = 0) (ji : dot3 (d .J) (d .I) = 0) (ik : dot3 (d .I) (d .K) = 0)
    (ht0 : 0 ≤ tol) (hl : ∀ a, 0 < length (d a)) (ht : ∀ a, tol ≤ length (d a) / 2)
    (hd : 0 ≤ darcy) (hperm : ∀ a k j i, 0 ≤ perm a k j i) (hn : ∀ n, ntg = some n → ∀ k j i, 0 ≤ n k j i) :
    ∃ r, halfCellIrregular (.plain p) none perm ntg darcy tol = .ok r ∧
      ∀ k j i axis plus, r k j i axis plus = some (halfCellRegular d perm ntg darcy k j i axis) := by
  obtain ⟨r, hr, hv⟩ := C115_value (.plain p) none perm ntg darcy ht0 (Or.inl rfl)
  refine ⟨r, hr, ?_⟩
  intro k j i axis plus
  have box : IsBox (cornersOf (.plain p) none k j i) d := by
    refine ⟨?_, ?_, ?_, kj, ji, ik⟩
    · intro jp ip
      simp only [cornersOf, Bool.toNat_true, Bool.toNat_false]
      rw [hp (k + 1), hp (k + 0)]; push_cast; module
    · intro kp ip
      simp only [cornersOf, Bool.toNat_true, Bool.toNat_false]
      rw [hp _ (j + 1), hp _ (j + 0)]; push_cast; module
    · intro kp jp
      simp only [cornersOf, Bool.toNat_true, Bool.toNat_false]
      rw [hp _ _ (i + 1), hp _ _ (i + 0)]; push_cast; module
  have hn' : 0 ≤ (ntg.map fun n => n k j i).getD 1 := by
    cases hnn : ntg with
    | none => simp
    | some n => simpa using hn n hnn k j i
  have t := fun perm ntg => C115_box_partial (darcy := darcy) (tol := tol) (perm := perm) (ntg := ntg) box axis plus (hl axis) (ht axis)
  by_cases ha : axis = .K
  · subst ha
    rw [(hv k j i plus).1, t, mul_one, abs_of_nonneg (mul_nonneg hd (hperm _ _ _ _))]
    simp only [others, halfCellRegular]
    congr 1
    have := (hl .K).ne'
    field_simp
    ring
  · rw [(hv k j i plus).2 axis ha, t, abs_of_nonneg (mul_nonneg (mul_nonneg hd (hperm _ _ _ _)) hn')]
    congr 1
    cases axis
    · exact absurd rfl ha
    · simp only [others, halfCellRegular]
      have := (hl .J).ne'
      field_simp
      ring
    · simp only [others, halfCellRegular]
      have := (hl .I).ne'
      field_simp
      ring

/-- cells of 100 by 50 by 3 -/
example : ∃ (d : Axis → V3) (p : Nat → Nat → Nat → V3), (∀ k j i, p k j i = p 0 0 0 + (k : ℝ) • d .K + (j : ℝ) • d .J + (i : ℝ) • d .I) ∧
    dot3 (d .K) (d .J) = 0 ∧ dot3 (d .J) (d .I) = 0 ∧ dot3 (d .I) (d .K) = 0 ∧ (∀ a, 0 < length (d a)) ∧ ∀ a, (1 : ℝ) ≤ length (d a) / 2 := by
  have l3 : length ![0, 0, 3] = 3 := by
    have := length_mul ![0, 0, 3]
    have h0 := Plane.length_nonneg ![0, 0, 3]
    simp at this; nlinarith
  have l50 : length ![0, 50, 0] = 50 := by
    have := length_mul ![0, 50, 0]
    have h0 := Plane.length_nonneg ![0, 50, 0]
    simp at this; nlinarith
  have l100 : length ![100, 0, 0] = 100 := by
    have := length_mul ![100, 0, 0]
    have h0 := Plane.length_nonneg ![100, 0, 0]
    simp at this; nlinarith
  refine ⟨fun a => match a with | .K => ![0, 0, 3] | .J => ![0, 50, 0] | .I => ![100, 0, 0],
    fun k j i => (k : ℝ) • ![0, 0, 3] + (j : ℝ) • ![0, 50, 0] + (i : ℝ) • ![100, 0, 0], ?_, ?_, ?_, ?_, ?_, ?_⟩
  · intro k j i; simp
  · simp [dot3]
  · simp [dot3]
  · simp [dot3]
  · intro a; cases a <;> simp only [l3, l50, l100] <;> norm_num
  · intro a; cases a <;> simp only [l3, l50, l100] <;> norm_num

/-- **C115** — moving the whole grid does not change the values -/
theorem C115_moved (darcy tol perm ntg : ℝ) (c : Corners) (v : V3) (axis : Axis) (plus : Bool) :
    halfT darcy tol perm ntg (fun kp jp ip => c kp jp ip + v) axis plus = halfT darcy tol perm ntg c axis plus := by
  have h1 : halfVector (fun kp jp ip => c kp jp ip + v) axis = halfVector c axis := by
    unfold halfVector faceCentre
    cases axis <;> simp only [faceCorners] <;> module
  have h2 : shadow (fun kp jp ip => c kp jp ip + v) axis plus = shadow c axis plus := by
    unfold shadow
    cases axis <;> simp only [faceCorners, add_sub_add_right_eq_sub]
  unfold halfT
  rw [h1, h2]

/-- the turn about the y axis with cosine 3/5 and sine 4/5 -/
def turned (v : V3) : V3 := ![3 / 5 * v 0 + 4 / 5 * v 2, v 1, -(4 / 5) * v 0 + 3 / 5 * v 2]

/-- **C115** — the values depend on how a cell lies with respect to the coordinate axes, if its edges are not at right angles:
turning a sheared cell as a whole changes the value for its K faces -/
theorem C115_turned_violated : ∃ c : Corners, (∀ v : V3, length (turned v) = length v) ∧
    halfT 1 0 1 1 (fun kp jp ip => turned (c kp jp ip)) .K true ≠ halfT 1 0 1 1 c .K true := by
  refine ⟨fun kp jp ip => ![(ip.toNat : ℝ) + 3 * (kp.toNat : ℝ), (jp.toNat : ℝ), (kp.toNat : ℝ)], ?_, ?_⟩
  · intro v
    refine (mul_self_inj (Plane.length_nonneg _) (Plane.length_nonneg _)).1 ?_
    rw [length_mul, length_mul]
    simp [turned]; ring
  · have hl : ∀ (h : V3), ¬ length h < 0 := fun h => not_lt.2 (Plane.length_nonneg _)
    unfold halfT
    rw [if_neg (hl _), if_neg (hl _)]
    simp only [length_mul]
    intro h
    simp only [Option.some.injEq] at h
    simp only [halfVector, faceCentre, faceCorners, shadow, cross3, turned] at h
    simp at h
    norm_num [abs_of_nonneg, abs_of_neg, abs_div, abs_mul] at h

/-- **C115** — the Darcy constant is that given, or goes by the length units, which must be the same for xy and z and either metres
or feet of some kind -/
theorem C115_darcy (given : Option ℝ) (xy z : String) (d : ℝ) :
    darcyFor given xy z = .ok d ↔ (given = some d ∨ given = none ∧ z = xy ∧ (xy = "m" ∧ d = 8.527017e-5 ∨ xy ≠ "m" ∧ xy.startsWith "ft" = true ∧ d = 1.127116e-3)) := by
  unfold darcyFor
  cases given with
  | some x => simp
  | none =>
    dsimp only
    by_cases h1 : xy = "m"
    · by_cases h2 : z = xy
      · rw [if_pos (Or.inl h1), if_pos h2, if_pos h1]
        constructor
        · intro h
          simp only [Except.ok.injEq] at h
          exact Or.inr ⟨rfl, h2, Or.inl ⟨h1, h.symm⟩⟩
        · rintro (h | ⟨_, _, (⟨_, h⟩ | ⟨h, _⟩)⟩)
          · cases h
          · rw [h]
          · exact absurd h1 h
      · rw [if_pos (Or.inl h1), if_neg h2]; simp [h2]
    · by_cases h3 : xy.startsWith "ft" = true
      · by_cases h2 : z = xy
        · rw [if_pos (Or.inr h3), if_pos h2, if_neg h1]
          constructor
          · intro h
            simp only [Except.ok.injEq] at h
            exact Or.inr ⟨rfl, h2, Or.inr ⟨h1, h3, h.symm⟩⟩
          · rintro (h | ⟨_, _, (⟨h, _⟩ | ⟨_, _, h⟩)⟩)
            · cases h
            · exact absurd h h1
            · rw [h]
        · rw [if_pos (Or.inr h3), if_neg h2]; simp [h2]
      · rw [if_neg (by simp only [h1, h3, or_self, not_false_eq_true, Bool.false_eq_true])]
        simp [h1, h3]

end

end Verif.Transmit
