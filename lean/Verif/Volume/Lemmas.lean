import Verif.Volume.Spec

/-! # Integration of the Jacobian -/

namespace Verif.Volume

section
variable {K : Type} [Field K]

/-- point at fraction t between two points -/
def lerp (t : K) (a b : Vec K) : Vec K := smul (1 - t) a + smul t b

end

/-- a polynomial of degree at most two -/
def IsQuad (f : ℝ → ℝ) : Prop := ∃ A B C : ℝ, ∀ x, f x = A + B * x + C * x ^ 2

theorem IsQuad.add {f g : ℝ → ℝ} (hf : IsQuad f) (hg : IsQuad g) : IsQuad fun x => f x + g x := by
  obtain ⟨A, B, C, h⟩ := hf
  obtain ⟨A', B', C', h'⟩ := hg
  exact ⟨A + A', B + B', C + C', fun x => by dsimp only; rw [h, h']; ring⟩

theorem IsQuad.mul_const {f : ℝ → ℝ} (hf : IsQuad f) (c : ℝ) : IsQuad fun x => f x * c := by
  obtain ⟨A, B, C, h⟩ := hf
  exact ⟨A * c, B * c, C * c, fun x => by dsimp only; rw [h]; ring⟩

/-- Simpson's rule is exact -/
theorem IsQuad.integral {f : ℝ → ℝ} (hf : IsQuad f) : ∫ x in (0 : ℝ)..1, f x = (f 0 + 4 * f (1 / 2) + f 1) / 6 := by
  obtain ⟨A, B, C, h⟩ := hf
  have e : f = fun x => A + B * x + C * x ^ 2 := funext h
  rw [e]
  rw [intervalIntegral.integral_add, intervalIntegral.integral_add]
  · have e1 : ∫ x in (0 : ℝ)..1, B * x = B / 2 := by
      rw [intervalIntegral.integral_const_mul, integral_id]
      ring
    have e2 : ∫ x in (0 : ℝ)..1, C * x ^ 2 = C / 3 := by
      rw [intervalIntegral.integral_const_mul, integral_pow]
      norm_num
      ring
    have e3 : ∫ _ in (0 : ℝ)..1, A = A := by simp
    rw [e1, e2, e3]
    ring
  all_goals
    apply Continuous.intervalIntegrable
    fun_prop

/-- the triple product with two of its three arguments moving along segments -/
theorem quad12 (a0 a1 b0 b1 c : Vec ℝ) : IsQuad fun t => triple (lerp t a0 a1) (lerp t b0 b1) c := by
  refine ⟨triple a0 b0 c, triple (a1 - a0) b0 c + triple a0 (b1 - b0) c, triple (a1 - a0) (b1 - b0) c, fun t => ?_⟩
  simp only [triple, lerp, smul, add_def, sub_def]
  ring

theorem quad13 (a0 a1 b c0 c1 : Vec ℝ) : IsQuad fun t => triple (lerp t a0 a1) b (lerp t c0 c1) := by
  refine ⟨triple a0 b c0, triple (a1 - a0) b c0 + triple a0 b (c1 - c0), triple (a1 - a0) b (c1 - c0), fun t => ?_⟩
  simp only [triple, lerp, smul, add_def, sub_def]
  ring

theorem quad23 (a b0 b1 c0 c1 : Vec ℝ) : IsQuad fun t => triple a (lerp t b0 b1) (lerp t c0 c1) := by
  refine ⟨triple a b0 c0, triple a (b1 - b0) c0 + triple a b0 (c1 - c0), triple a (b1 - b0) (c1 - c0), fun t => ?_⟩
  simp only [triple, lerp, smul, add_def, sub_def]
  ring

/-- the mean over a square of corner values with weights 2, 1, 1, 2 -/
noncomputable def w4 (p q r s : ℝ) : ℝ := (2 * p + q + r + 2 * s) / 6

theorem int12 (a0 a1 b0 b1 c : Vec ℝ) : ∫ t in (0 : ℝ)..1, triple (lerp t a0 a1) (lerp t b0 b1) c =
    w4 (triple a0 b0 c) (triple a0 b1 c) (triple a1 b0 c) (triple a1 b1 c) := by
  rw [(quad12 a0 a1 b0 b1 c).integral]
  simp only [triple, lerp, smul, add_def, w4]
  ring

theorem int13 (a0 a1 b c0 c1 : Vec ℝ) : ((fun t => triple (lerp t a0 a1) b (lerp t c0 c1)) 0 +
      4 * (fun t => triple (lerp t a0 a1) b (lerp t c0 c1)) (1 / 2) + (fun t => triple (lerp t a0 a1) b (lerp t c0 c1)) 1) / 6 =
    w4 (triple a0 b c0) (triple a0 b c1) (triple a1 b c0) (triple a1 b c1) := by
  simp only [triple, lerp, smul, add_def, w4]
  ring

theorem int23 (a b0 b1 c0 c1 : Vec ℝ) : ((fun t => triple a (lerp t b0 b1) (lerp t c0 c1)) 0 +
      4 * (fun t => triple a (lerp t b0 b1) (lerp t c0 c1)) (1 / 2) + (fun t => triple a (lerp t b0 b1) (lerp t c0 c1)) 1) / 6 =
    w4 (triple a b0 c0) (triple a b0 c1) (triple a b1 c0) (triple a b1 c1) := by
  simp only [triple, lerp, smul, add_def, w4]
  ring

theorem IsQuad.w4 {p q r s : ℝ → ℝ} (hp : IsQuad p) (hq : IsQuad q) (hr : IsQuad r) (hs : IsQuad s) :
    IsQuad fun t => Volume.w4 (p t) (q t) (r t) (s t) := by
  obtain ⟨A, B, C, h⟩ := ((((hp.mul_const 2).add hq).add hr).add (hs.mul_const 2)).mul_const (1 / 6)
  refine ⟨A, B, C, fun x => ?_⟩
  rw [← h]
  unfold Volume.w4
  ring

/-- integral of a weighted sum of four -/
theorem integral_w4 {p q r s : ℝ → ℝ} (hp : IsQuad p) (hq : IsQuad q) (hr : IsQuad r) (hs : IsQuad s) :
    ∫ t in (0 : ℝ)..1, w4 (p t) (q t) (r t) (s t) =
      w4 (∫ t in (0 : ℝ)..1, p t) (∫ t in (0 : ℝ)..1, q t) (∫ t in (0 : ℝ)..1, r t) (∫ t in (0 : ℝ)..1, s t) := by
  rw [(hp.w4 hq hr hs).integral, hp.integral, hq.integral, hr.integral, hs.integral]
  unfold w4
  ring

theorem Int13 (a0 a1 b c0 c1 : Vec ℝ) : ∫ t in (0 : ℝ)..1, triple (lerp t a0 a1) b (lerp t c0 c1) =
    w4 (triple a0 b c0) (triple a0 b c1) (triple a1 b c0) (triple a1 b c1) := by
  rw [(quad13 a0 a1 b c0 c1).integral]
  exact int13 a0 a1 b c0 c1

theorem Int23 (a b0 b1 c0 c1 : Vec ℝ) : ∫ t in (0 : ℝ)..1, triple a (lerp t b0 b1) (lerp t c0 c1) =
    w4 (triple a b0 c0) (triple a b0 c1) (triple a b1 c0) (triple a b1 c1) := by
  rw [(quad23 a b0 b1 c0 c1).integral]
  exact int23 a b0 b1 c0 c1

/-- edges in the i direction, j direction and k direction -/
noncomputable def eI (cp : Corners ℝ) (k j : Bool) : Vec ℝ := cp k j true - cp k j false
noncomputable def eJ (cp : Corners ℝ) (k i : Bool) : Vec ℝ := cp k true i - cp k false i
noncomputable def eK (cp : Corners ℝ) (j i : Bool) : Vec ℝ := cp true j i - cp false j i

theorem deriv_affine (f : ℝ → ℝ) (B : ℝ) (h : ∀ t, f t = f 0 + B * t) (t : ℝ) : deriv f t = B := by
  have e : f = fun t => f 0 + B * t := funext h
  rw [e]
  simp [deriv_const_mul]

theorem dI (cp : Corners ℝ) (u v w : ℝ) : pathDeriv (fun t => point cp u v t) w =
    lerp v (lerp u (eI cp false false) (eI cp true false)) (lerp u (eI cp false true) (eI cp true true)) := by
  unfold pathDeriv
  ext
  all_goals
    dsimp only
    refine deriv_affine _ _ (fun t => ?_) w
    simp only [point, smul, add_def, sub_def, lerp, eI]
    ring

theorem dJ (cp : Corners ℝ) (u v w : ℝ) : pathDeriv (fun t => point cp u t w) v =
    lerp w (lerp u (eJ cp false false) (eJ cp true false)) (lerp u (eJ cp false true) (eJ cp true true)) := by
  unfold pathDeriv
  ext
  all_goals
    dsimp only
    refine deriv_affine _ _ (fun t => ?_) v
    simp only [point, smul, add_def, sub_def, lerp, eJ]
    ring

theorem dK (cp : Corners ℝ) (u v w : ℝ) : pathDeriv (fun t => point cp t v w) u =
    lerp w (lerp v (eK cp false false) (eK cp true false)) (lerp v (eK cp false true) (eK cp true true)) := by
  unfold pathDeriv
  ext
  all_goals
    dsimp only
    refine deriv_affine _ _ (fun t => ?_) u
    simp only [point, smul, add_def, sub_def, lerp, eK]
    ring

/-- integral over u of the triple product of edges -/
noncomputable def sI (cp : Corners ℝ) (j i : Bool) (j' i' : Bool) : ℝ :=
  w4 (triple (eI cp false j) (eJ cp false i) (eK cp j' i')) (triple (eI cp false j) (eJ cp true i) (eK cp j' i'))
    (triple (eI cp true j) (eJ cp false i) (eK cp j' i')) (triple (eI cp true j) (eJ cp true i) (eK cp j' i'))

theorem signedVolume_sum (cp : Corners ℝ) : signedVolume cp =
    w4
      (w4 (sI cp false false false false) (sI cp false false true false) (sI cp true false false false)
        (sI cp true false true false))
      (w4 (sI cp false false false true) (sI cp false false true true) (sI cp true false false true)
        (sI cp true false true true))
      (w4 (sI cp false true false false) (sI cp false true true false) (sI cp true true false false)
        (sI cp true true true false))
      (w4 (sI cp false true false true) (sI cp false true true true) (sI cp true true false true)
        (sI cp true true true true)) := by
  unfold signedVolume jacobian
  simp only [dI, dJ, dK]
  have step1 : ∀ u v : ℝ, (∫ w in (0 : ℝ)..1, triple
      (lerp v (lerp u (eI cp false false) (eI cp true false)) (lerp u (eI cp false true) (eI cp true true)))
      (lerp w (lerp u (eJ cp false false) (eJ cp true false)) (lerp u (eJ cp false true) (eJ cp true true)))
      (lerp w (lerp v (eK cp false false) (eK cp true false)) (lerp v (eK cp false true) (eK cp true true)))) = _ :=
    fun u v => Int23 _ _ _ _ _
  simp only [step1]
  have step2 : ∀ u : ℝ, (∫ v in (0 : ℝ)..1, w4
      (triple (lerp v (lerp u (eI cp false false) (eI cp true false)) (lerp u (eI cp false true) (eI cp true true)))
        (lerp u (eJ cp false false) (eJ cp true false)) (lerp v (eK cp false false) (eK cp true false)))
      (triple (lerp v (lerp u (eI cp false false) (eI cp true false)) (lerp u (eI cp false true) (eI cp true true)))
        (lerp u (eJ cp false false) (eJ cp true false)) (lerp v (eK cp false true) (eK cp true true)))
      (triple (lerp v (lerp u (eI cp false false) (eI cp true false)) (lerp u (eI cp false true) (eI cp true true)))
        (lerp u (eJ cp false true) (eJ cp true true)) (lerp v (eK cp false false) (eK cp true false)))
      (triple (lerp v (lerp u (eI cp false false) (eI cp true false)) (lerp u (eI cp false true) (eI cp true true)))
        (lerp u (eJ cp false true) (eJ cp true true)) (lerp v (eK cp false true) (eK cp true true)))) = _ :=
    fun u => integral_w4 (quad13 _ _ _ _ _) (quad13 _ _ _ _ _) (quad13 _ _ _ _ _) (quad13 _ _ _ _ _)
  simp only [step2, Int13]
  have q : ∀ j i j' i', IsQuad fun u => triple (lerp u (eI cp false j) (eI cp true j))
      (lerp u (eJ cp false i) (eJ cp true i)) (eK cp j' i') := fun j i j' i' => quad12 _ _ _ _ _
  have q4 := fun i j' => (q false i false j').w4 (q false i true j') (q true i false j') (q true i true j')
  rw [integral_w4 (q4 false false) (q4 false true) (q4 true false) (q4 true true)]
  rw [integral_w4 (q _ _ _ _) (q _ _ _ _) (q _ _ _ _) (q _ _ _ _), integral_w4 (q _ _ _ _) (q _ _ _ _) (q _ _ _ _) (q _ _ _ _),
    integral_w4 (q _ _ _ _) (q _ _ _ _) (q _ _ _ _) (q _ _ _ _), integral_w4 (q _ _ _ _) (q _ _ _ _) (q _ _ _ _) (q _ _ _ _)]
  simp only [int12]
  rfl

end Verif.Volume
