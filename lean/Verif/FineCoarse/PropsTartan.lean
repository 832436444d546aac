import Verif.FineCoarse.ModelTartan
import Verif.FineCoarse.Lemmas
import Mathlib.Tactic.Linarith
import Mathlib.Tactic.Ring
import Mathlib.Tactic.FieldSimp
import Mathlib.Tactic.Positivity

/-!
# Property C38: tartan refinement
-/

namespace Verif.FineCoarse
open Verif.Py Verif.Box

/-- The documented shape of the ratios of one axis of a tartan refinement: one ratio for each of the
`n` coarse slices; the fovea ratio in slices `a` to `b`; never below one; never increasing when moving
away from the fovea. -/
structure IsTartan (n a b f : Int) (l : List Int) : Prop where
  len : (l.length : Int) = n
  fovea : ∀ (k : Nat) (h : k < l.length), a ≤ k → (k : Int) ≤ b → l[k] = f
  least : ∀ x ∈ l, 1 ≤ x
  below : ∀ (k : Nat) (h : k + 1 < l.length), (k : Int) < a → l[k] ≤ l[k + 1]
  above : ∀ (k : Nat) (h : k + 1 < l.length), b ≤ k → l[k + 1] ≤ l[k]

section
variable {K : Type} [Field K] [LinearOrder K] [IsStrictOrderedRing K] [FloorRing K]

theorem around_mono {x y : K} (h : x ≤ y) : around x ≤ around y := by
  have hf : ⌊x⌋ ≤ ⌊y⌋ := Int.floor_le_floor h
  have hup : ∀ z : K, around z ≤ ⌊z⌋ + 1 := by intro z; unfold around; split_ifs <;> omega
  have hlo : ∀ z : K, ⌊z⌋ ≤ around z := by intro z; unfold around; split_ifs <;> omega
  rcases lt_or_eq_of_le hf with hlt | heq
  · have := hup x; have := hlo y; omega
  · unfold around
    rw [← heq]
    have hd : x - (⌊x⌋ : K) ≤ y - (⌊x⌋ : K) := by linarith
    split_ifs <;> first | omega | (exfalso; linarith) | skip

theorem around_int (z : Int) : around ((z : K)) = z := by
  unfold around
  rw [Int.floor_intCast, sub_self, if_pos (by norm_num)]

theorem around_ge_one {x : K} (h : 1 ≤ x) : 1 ≤ around x := by
  have := around_mono h
  have h1 : around (1 : K) = 1 := by have := around_int (K := K) 1; simpa using this
  omega

theorem around_lt_three_half {x : K} (h : 1 ≤ x) (h' : x < 3 / 2) : around x = 1 := by
  have hfl : ⌊x⌋ = 1 := by
    rw [Int.floor_eq_iff]; constructor
    · simpa using h
    · have : (3 : K) / 2 < 2 := by norm_num
      push_cast; linarith
  unfold around
  rw [hfl, if_pos (by push_cast; linarith)]

/-- value on a side after `t` further decay steps -/
def iter (linear : Bool) (rate x : K) (t : Nat) : K := (decay linear rate)^[t] x

theorem iter_succ (linear : Bool) (rate x : K) (t : Nat) :
    iter linear rate x (t + 1) = iter linear rate (decay linear rate x) t := rfl

theorem iter_succ' (linear : Bool) (rate x : K) (t : Nat) :
    iter linear rate x (t + 1) = decay linear rate (iter linear rate x t) := by
  unfold iter; rw [Function.iterate_succ_apply']

theorem iter_linear (rate x : K) (t : Nat) : iter true rate x t = x - t * rate := by
  induction t with
  | zero => simp [iter]
  | succ t ih => rw [iter_succ', ih]; simp only [decay, if_true]; push_cast; ring

theorem iter_exp (rate x : K) (t : Nat) : iter false rate x t = x * rate ^ t := by
  induction t with
  | zero => simp [iter]
  | succ t ih => rw [iter_succ', ih]; simp only [decay]; rw [pow_succ]; simp; ring

/-- The loop, in closed form: some number `T` of steps is made on each side, every step is made while
one of the two values exceeds one, and the loop ends because both values have dropped to one or both
ends of the grid are reached (or the iteration bound is used up). -/
theorem tartanLoop_spec (linear : Bool) (n : Int) (r0 r1 : K) : ∀ (fuel : Nat) (a b : Int) (x y : K)
    (l : List Int), (l.length : Int) = n → a ≤ b + 1 → 0 ≤ b + 1 →
    ∃ T : Nat, T ≤ fuel ∧ (tartanLoop linear n r0 r1 fuel a b x y l).length = l.length ∧
      (∀ k : Nat, k < l.length → (tartanLoop linear n r0 r1 fuel a b x y l)[k]? =
        if (k : Int) < a ∧ a - T ≤ k then some (around (iter linear r0 x (a - 1 - k).toNat))
        else if b < k ∧ (k : Int) ≤ b + T then some (around (iter linear r1 y (k - 1 - b).toNat))
        else l[k]?) ∧
      (∀ t : Nat, t < T → around (iter linear r0 x t) > 1 ∨ around (iter linear r1 y t) > 1) ∧
      (T = fuel ∨ (around (iter linear r0 x T) ≤ 1 ∧ around (iter linear r1 y T) ≤ 1) ∨
        (a - T ≤ 0 ∧ n - 1 ≤ b + T)) := by
  intro fuel
  induction fuel with
  | zero =>
    intro a b x y l hl hab hb0
    refine ⟨0, le_refl _, rfl, ?_, ?_, .inl rfl⟩
    · intro k hk
      rw [if_neg (by omega), if_neg (by omega)]; rfl
    · intro t ht; omega
  | succ fuel ih =>
    intro a b x y l hl hab hb0
    unfold tartanLoop
    by_cases hc : (around x > 1 ∨ around y > 1) ∧ (a > 0 ∨ b < n - 1)
    · rw [if_pos hc]
      dsimp only
      generalize hl1 : (if a - 1 ≥ 0 then l.set (a - 1).toNat (around x) else l) = l1
      generalize hl2 : (if b + 1 < n then l1.set (b + 1).toNat (around y) else l1) = l2
      have e1 : l1.length = l.length := by rw [← hl1]; split_ifs <;> simp
      have e2 : l2.length = l.length := by rw [← hl2]; split_ifs <;> simp [e1]
      have g2 : ∀ k : Nat, k < l.length → l2[k]? =
          if (k : Int) = a - 1 then some (around x)
          else if (k : Int) = b + 1 then some (around y) else l[k]? := by
        intro k hk
        have g1 : l1[k]? = if (k : Int) = a - 1 then some (around x) else l[k]? := by
          rw [← hl1]
          by_cases ha : a - 1 ≥ 0
          · rw [if_pos ha, List.getElem?_set]
            by_cases hka : (k : Int) = a - 1
            · rw [if_pos (by omega), if_pos hka, if_pos (by omega)]
            · rw [if_neg (by omega), if_neg hka]
          · rw [if_neg ha, if_neg (by omega)]
        rw [← hl2]
        by_cases hb : b + 1 < n
        · rw [if_pos hb, List.getElem?_set]
          by_cases hkb : (b + 1).toNat = k
          · rw [if_pos hkb, if_pos (by omega), if_neg (by omega), if_pos (by omega)]
          · rw [if_neg hkb, g1]
            split_ifs <;> first | rfl | omega
        · rw [if_neg hb, g1]
          split_ifs <;> first | rfl | omega
      obtain ⟨T, hT, q1, q2, q3, q4⟩ := ih (a - 1) (b + 1) (decay linear r0 x) (decay linear r1 y) l2
        (by omega) (by omega) (by omega)
      refine ⟨T + 1, by omega, by rw [← e2]; exact q1, ?_, ?_, ?_⟩
      · intro k hk
        have := q2 k (by omega)
        rw [this, g2 k hk]
        by_cases c1 : (k : Int) = a - 1
        · rw [if_neg (by omega), if_neg (by omega), if_pos c1, if_pos (by omega)]
          have : (a - 1 - (k : Int)).toNat = 0 := by omega
          rw [this]; rfl
        · by_cases c2 : (k : Int) = b + 1
          · rw [if_neg (by omega), if_neg (by omega), if_neg c1, if_pos c2, if_neg (by omega),
              if_pos (by omega)]
            have : ((k : Int) - 1 - b).toNat = 0 := by omega
            rw [this]; rfl
          · rw [if_neg c1, if_neg c2]
            by_cases c3 : (k : Int) < a - 1 ∧ a - 1 - T ≤ k
            · rw [if_pos c3, if_pos (by omega), ← iter_succ]
              congr 3; omega
            · rw [if_neg c3]
              by_cases c4 : b + 1 < k ∧ (k : Int) ≤ b + 1 + T
              · rw [if_pos c4, if_neg (by omega), if_pos (by omega), ← iter_succ]
                congr 3; omega
              · rw [if_neg c4, if_neg (by omega), if_neg (by omega)]
      · intro t ht
        cases t with
        | zero => exact hc.1
        | succ t => exact q3 t (by omega)
      · rcases q4 with q | q | q
        · left; omega
        · right; left; exact q
        · right; right; omega
    · rw [if_neg hc]
      refine ⟨0, by omega, rfl, ?_, ?_, .inr ?_⟩
      · intro k hk
        rw [if_neg (by omega), if_neg (by omega)]
      · intro t ht; omega
      · have : iter linear r0 x 0 = x := rfl
        have : iter linear r1 y 0 = y := rfl
        simp only [*]
        rw [not_and_or] at hc
        rcases hc with hc | hc
        · left; omega
        · right; omega

/-- From the closed form to the documented shape.  `G0`, `G1` are the rounded values at distance
`t + 1` from the fovea on the two sides. -/
theorem isTartan_of (linear : Bool) (n a b f : Int) (r0 r1 : K) (h0 : 0 ≤ a) (hab : a ≤ b) (hbn : b < n)
    (hf : 1 ≤ f)
    (mono0 : ∀ t : Nat, (t : Int) + 1 < a →
      around (iter linear r0 (decay linear r0 (f : K)) (t + 1)) ≤ around (iter linear r0 (decay linear r0 (f : K)) t))
    (mono1 : ∀ t : Nat, (t : Int) + 1 < n - 1 - b →
      around (iter linear r1 (decay linear r1 (f : K)) (t + 1)) ≤ around (iter linear r1 (decay linear r1 (f : K)) t))
    (top0 : 0 < a → around (decay linear r0 (f : K)) ≤ f)
    (top1 : b < n - 1 → around (decay linear r1 (f : K)) ≤ f)
    (pos : ∀ t : Nat, (around (iter linear r0 (decay linear r0 (f : K)) t) > 1 ∨
        around (iter linear r1 (decay linear r1 (f : K)) t) > 1) →
      ((t : Int) < a → 1 ≤ around (iter linear r0 (decay linear r0 (f : K)) t)) ∧
      ((t : Int) < n - 1 - b → 1 ≤ around (iter linear r1 (decay linear r1 (f : K)) t))) :
    IsTartan n a b f (tartanAxis linear n a b f r0 r1) := by
  unfold tartanAxis
  generalize hx : decay linear r0 (f : K) = x at *
  generalize hy : decay linear r1 (f : K) = y at *
  generalize hl0 : pySetSlice (List.replicate n.toNat (1 : Int)) a (b + 1) f = l0
  have hlen : (l0.length : Int) = n := by rw [← hl0]; simp; omega
  have hg : ∀ k : Nat, k < l0.length → l0[k]? = some (if a ≤ k ∧ (k : Int) ≤ b then f else 1) := by
    intro k hk
    rw [← hl0, pySetSlice_getElem? _ _ _ _ _ h0 (by omega)]
    have : k < n.toNat := by omega
    simp only [List.length_replicate, List.getElem?_replicate, this, if_true, and_true]
    split_ifs <;> first | rfl | omega
  obtain ⟨T, _, q1, q2, q3, _⟩ := tartanLoop_spec linear n r0 r1 n.toNat a b x y l0 hlen (by omega) (by omega)
  generalize tartanLoop linear n r0 r1 n.toNat a b x y l0 = l at q1 q2
  have key : ∀ (k : Nat) (h : k < l.length), l[k] =
      if (k : Int) < a ∧ a - T ≤ k then around (iter linear r0 x (a - 1 - k).toNat)
      else if b < k ∧ (k : Int) ≤ b + T then around (iter linear r1 y (k - 1 - b).toNat)
      else if a ≤ k ∧ (k : Int) ≤ b then f else 1 := by
    intro k h
    have := q2 k (by omega)
    rw [hg k (by omega), List.getElem?_eq_getElem h] at this
    split_ifs at this ⊢ <;> simpa using this
  have ge1 : ∀ (k : Nat) (h : k < l.length), 1 ≤ l[k] := by
    intro k h
    rw [key k h]
    split_ifs with c1 c2 c3
    · exact (pos _ (q3 _ (by omega))).1 (by omega)
    · exact (pos _ (q3 _ (by omega))).2 (by omega)
    · exact hf
    · exact le_refl _
  refine ⟨by omega, ?_, ?_, ?_, ?_⟩
  · intro k h h1 h2
    rw [key k h, if_neg (by omega), if_neg (by omega), if_pos (by omega)]
  · intro z hz
    obtain ⟨k, h, rfl⟩ := List.getElem_of_mem hz
    exact ge1 k h
  · intro k h hka
    by_cases c : a - T ≤ k
    · rw [key k (by omega), if_pos ⟨hka, c⟩]
      by_cases ck : (k : Int) + 1 < a
      · rw [key (k + 1) h, if_pos (by omega)]
        have e : (a - 1 - (k : Int)).toNat = (a - 1 - ((k + 1 : Nat) : Int)).toNat + 1 := by omega
        rw [e]
        exact mono0 _ (by omega)
      · have e : (a - 1 - (k : Int)).toNat = 0 := by omega
        rw [e, key (k + 1) h, if_neg (by omega), if_neg (by omega), if_pos (by omega)]
        exact top0 (by omega)
    · have := ge1 (k + 1) h
      rw [key k (by omega), if_neg (by omega), if_neg (by omega), if_neg (by omega)]
      exact this
  · intro k h hkb
    by_cases c : (k : Int) + 1 ≤ b + T
    · rw [key (k + 1) h, if_neg (by omega), if_pos (by omega)]
      by_cases ck : b < k
      · rw [key k (by omega), if_neg (by omega), if_pos (by omega)]
        have e : (((k + 1 : Nat) : Int) - 1 - b).toNat = ((k : Int) - 1 - b).toNat + 1 := by omega
        rw [e]
        exact mono1 _ (by omega)
      · have e : (((k + 1 : Nat) : Int) - 1 - b).toNat = 0 := by omega
        rw [e, key k (by omega), if_neg (by omega), if_neg (by omega), if_pos (by omega)]
        exact top1 (by omega)
    · have := ge1 k (by omega)
      rw [key (k + 1) h, if_neg (by omega), if_neg (by omega), if_neg (by omega)]
      exact this

/-- Linear decay with a given non-negative rate (the same on both sides). -/
theorem C38_tartan_linear (n a b f : Int) (rate : K) (h0 : 0 ≤ a) (hab : a ≤ b) (hbn : b < n) (hf : 1 ≤ f)
    (hr : 0 ≤ rate) : IsTartan n a b f (tartanAxis true n a b f rate rate) := by
  have hm : ∀ t : Nat, around (iter true rate (decay true rate (f : K)) (t + 1)) ≤
      around (iter true rate (decay true rate (f : K)) t) := by
    intro t
    apply around_mono
    rw [iter_succ']
    simp only [decay, if_true]; linarith
  have htop : around (decay true rate (f : K)) ≤ f := by
    rw [← around_int (K := K) f]
    apply around_mono
    simp only [decay, if_true, around_int]; linarith
  refine isTartan_of true n a b f rate rate h0 hab hbn hf (fun t _ => hm t) (fun t _ => hm t)
    (fun _ => htop) (fun _ => htop) ?_
  intro t ht
  constructor <;> intro _ <;> omega

/-- Exponential decay with a given rate between zero and one (the same on both sides). -/
theorem C38_tartan_exponential (n a b f : Int) (rate : K) (h0 : 0 ≤ a) (hab : a ≤ b) (hbn : b < n)
    (hf : 1 ≤ f) (hr0 : 0 ≤ rate) (hr1 : rate ≤ 1) :
    IsTartan n a b f (tartanAxis false n a b f rate rate) := by
  have hfK : (0 : K) ≤ (f : K) := by exact_mod_cast (by omega : 0 ≤ f)
  have hm : ∀ t : Nat, around (iter false rate (decay false rate (f : K)) (t + 1)) ≤
      around (iter false rate (decay false rate (f : K)) t) := by
    intro t
    apply around_mono
    rw [iter_exp, iter_exp, pow_succ]
    have h1 : 0 ≤ decay false rate (f : K) * rate ^ t := by
      simp only [decay]; simp; positivity
    calc decay false rate (f : K) * (rate ^ t * rate) = decay false rate (f : K) * rate ^ t * rate := by ring
      _ ≤ decay false rate (f : K) * rate ^ t * 1 := mul_le_mul_of_nonneg_left hr1 h1
      _ = _ := by ring
  have htop : around (decay false rate (f : K)) ≤ f := by
    rw [← around_int (K := K) f]
    apply around_mono
    simp only [decay, around_int]
    have := mul_le_mul_of_nonneg_left hr1 hfK
    simpa using this
  refine isTartan_of false n a b f rate rate h0 hab hbn hf (fun t _ => hm t) (fun t _ => hm t)
    (fun _ => htop) (fun _ => htop) ?_
  intro t ht
  constructor <;> intro _ <;> omega

/-- Linear decay with the default rates. -/
theorem C38_tartan_linear_default (n a b f : Int) (h0 : 0 ≤ a) (hab : a ≤ b) (hbn : b < n) (hf : 1 ≤ f) :
    IsTartan n a b f (tartanAxis (K := K) true n a b f (defaultLinearRate f a)
      (defaultLinearRate f (n - 1 - b))) := by
  have hfK : (1 : K) ≤ (f : K) := by exact_mod_cast hf
  have hrate : ∀ d : Int, 0 ≤ d → (0 : K) ≤ defaultLinearRate f d ∧
      (d : K) * defaultLinearRate f d ≤ (f : K) - 1 := by
    intro d hd
    have hdK : (0 : K) ≤ (d : K) := by exact_mod_cast hd
    have hb : (0 : K) < (d : K) + 1 / 2 := by positivity
    unfold defaultLinearRate
    refine ⟨div_nonneg (by linarith) hb.le, ?_⟩
    rw [← mul_div_assoc, div_le_iff₀ hb]
    nlinarith
  have hm : ∀ (rate : K) (t : Nat), 0 ≤ rate → around (iter true rate (decay true rate (f : K)) (t + 1)) ≤
      around (iter true rate (decay true rate (f : K)) t) := by
    intro rate t hr
    apply around_mono
    rw [iter_succ']
    simp only [decay, if_true]; linarith
  have htop : ∀ rate : K, 0 ≤ rate → around (decay true rate (f : K)) ≤ f := by
    intro rate hr
    rw [← around_int (K := K) f]
    apply around_mono
    simp only [decay, if_true, around_int]; linarith
  have hge : ∀ (d : Int) (t : Nat), (t : Int) < d →
      1 ≤ around (iter true (defaultLinearRate f d) (decay true (defaultLinearRate f d) (f : K)) t) := by
    intro d t ht
    obtain ⟨r0, r1⟩ := hrate d (by omega)
    apply around_ge_one
    rw [iter_linear]
    simp only [decay, if_true]
    have htK : ((t : K) + 1) ≤ (d : K) := by exact_mod_cast (by omega : (t : Int) + 1 ≤ d)
    have := mul_le_mul_of_nonneg_right htK r0
    linarith
  have ra := (hrate a h0).1
  have rb := (hrate (n - 1 - b) (by omega)).1
  refine isTartan_of true n a b f _ _ h0 hab hbn hf (fun t _ => hm _ t ra) (fun t _ => hm _ t rb)
    (fun _ => htop _ ra) (fun _ => htop _ rb) ?_
  intro t _
  exact ⟨fun h => hge a t h, fun h => hge _ t h⟩

/-- Exponential decay with the default rates.  The default rate on a side at distance `d` from the
boundary is `(1.5 / f) ** (1 / (d + 0.5))` (fine_coarse.py:448), that is the positive number whose
power `2 d + 1` is `(1.5 / f) ** 2`. -/
theorem C38_tartan_exponential_default (n a b f : Int) (rate0 rate1 : K) (h0 : 0 ≤ a) (hab : a ≤ b)
    (hbn : b < n) (hf : 1 ≤ f) (p0 : 0 < rate0) (p1 : 0 < rate1)
    (e0 : rate0 ^ (2 * a.toNat + 1) = (3 / 2 / (f : K)) ^ 2)
    (e1 : rate1 ^ (2 * (n - 1 - b).toNat + 1) = (3 / 2 / (f : K)) ^ 2) :
    IsTartan n a b f (tartanAxis false n a b f rate0 rate1) := by
  have hfK : (1 : K) ≤ (f : K) := by exact_mod_cast hf
  have hfp : (0 : K) < (f : K) := by linarith
  have hit : ∀ (rate : K) (t : Nat), iter false rate (decay false rate (f : K)) t = (f : K) * rate ^ (t + 1) := by
    intro rate t
    rw [iter_exp]; simp only [decay]; rw [pow_succ]; simp; ring
  by_cases hf1 : f = 1
  · subst hf1
    -- everything within the grid rounds to one
    have hone : ∀ (rate : K) (d t : Nat), 0 < rate → rate ^ (2 * d + 1) = (3 / 2 / ((1 : Int) : K)) ^ 2 → t < d →
        around (iter false rate (decay false rate ((1 : Int) : K)) t) = 1 := by
      intro rate d t hp he ht
      rw [hit]
      have hr1 : 1 < rate := by
        by_contra hc
        push_neg at hc
        have := pow_le_one₀ hp.le hc (n := 2 * d + 1)
        rw [he] at this
        norm_num at this
      have hA : 1 ≤ rate ^ (t + 1) := one_le_pow₀ hr1.le
      have hB : rate ^ (2 * (t + 1)) < rate ^ (2 * d + 1) := pow_lt_pow_right₀ hr1 (by omega)
      rw [he, pow_mul'] at hB
      have hC : rate ^ (t + 1) < 3 / 2 := by
        have := lt_of_pow_lt_pow_left₀ 2 (by norm_num) hB
        simpa using this
      exact around_lt_three_half (by simpa using hA) (by simpa using hC)
    refine isTartan_of false n a b 1 rate0 rate1 h0 hab hbn hf ?_ ?_ ?_ ?_ ?_
    · intro t ht
      rw [hone rate0 a.toNat (t + 1) p0 e0 (by omega), hone rate0 a.toNat t p0 e0 (by omega)]
    · intro t ht
      rw [hone rate1 _ (t + 1) p1 e1 (by omega), hone rate1 _ t p1 e1 (by omega)]
    · intro h; have := hone rate0 a.toNat 0 p0 e0 (by omega); exact le_of_eq this
    · intro h; have := hone rate1 _ 0 p1 e1 (by omega); exact le_of_eq this
    · intro t _
      refine ⟨fun h => ?_, fun h => ?_⟩
      · rw [hone rate0 a.toNat t p0 e0 (by omega)]
      · rw [hone rate1 _ t p1 e1 (by omega)]
  · have hf2 : (2 : K) ≤ (f : K) := by exact_mod_cast (by omega : (2 : Int) ≤ f)
    have hq : (3 / 2 / (f : K)) < 1 := by rw [div_lt_one hfp]; linarith
    have hq0 : 0 < (3 / 2 / (f : K)) := by positivity
    have hle1 : ∀ (rate : K) (d : Nat), 0 < rate → rate ^ (2 * d + 1) = (3 / 2 / (f : K)) ^ 2 → rate ≤ 1 := by
      intro rate d hp he
      by_contra hc
      push_neg at hc
      have h1 := one_le_pow₀ hc.le (n := 2 * d + 1)
      rw [he] at h1
      have h2 := pow_lt_one₀ hq0.le hq (n := 2) (by norm_num)
      linarith
    have hge : ∀ (rate : K) (d t : Nat), 0 < rate → rate ^ (2 * d + 1) = (3 / 2 / (f : K)) ^ 2 → t < d →
        1 ≤ around (iter false rate (decay false rate (f : K)) t) := by
      intro rate d t hp he ht
      rw [hit]
      apply around_ge_one
      have hB : rate ^ (2 * d + 1) ≤ rate ^ (2 * (t + 1)) :=
        pow_le_pow_of_le_one hp.le (hle1 rate d hp he) (by omega)
      rw [he, pow_mul'] at hB
      have hC : 3 / 2 / (f : K) ≤ rate ^ (t + 1) := (pow_le_pow_iff_left₀ hq0.le (by positivity) (by norm_num)).1 hB
      have := mul_le_mul_of_nonneg_left hC hfp.le
      rw [mul_div_cancel₀ _ (ne_of_gt hfp)] at this
      linarith
    have hm : ∀ (rate : K) (t : Nat), 0 < rate → rate ≤ 1 →
        around (iter false rate (decay false rate (f : K)) (t + 1)) ≤
        around (iter false rate (decay false rate (f : K)) t) := by
      intro rate t hp h1
      apply around_mono
      rw [hit, hit]
      exact mul_le_mul_of_nonneg_left (pow_le_pow_of_le_one hp.le h1 (by omega)) hfp.le
    have htop : ∀ rate : K, rate ≤ 1 → around (decay false rate (f : K)) ≤ f := by
      intro rate h1
      rw [← around_int (K := K) f]
      apply around_mono
      simp only [decay, around_int]
      have := mul_le_mul_of_nonneg_left h1 hfp.le
      simpa using this
    have l0 := hle1 rate0 _ p0 e0
    have l1 := hle1 rate1 _ p1 e1
    refine isTartan_of false n a b f rate0 rate1 h0 hab hbn hf (fun t _ => hm _ t p0 l0)
      (fun t _ => hm _ t p1 l1) (fun _ => htop _ l0) (fun _ => htop _ l1) ?_
    intro t _
    exact ⟨fun h => hge rate0 a.toNat t p0 e0 (by omega), fun h => hge rate1 _ t p1 e1 (by omega)⟩

end

example : tartanAxis true 9 3 4 4 (1 : Rat) 1 = [1, 2, 3, 4, 4, 3, 2, 1, 1] := by decide +kernel
example : tartanAxis false 7 3 3 8 (1 / 2 : Rat) (1 / 2) = [1, 2, 4, 8, 4, 2, 1] := by decide +kernel

/-- A tartan ratio vector is accepted by the refinement object as it stands. -/
theorem C38_tartan_accepted (n a b f : Int) (l : List Int) (hn : 0 < n) (h : IsTartan n a b f l) (ax : Axis)
    (hc : ax.coarse = n) (hfine : ax.fine = l.sum) :
    ∃ ax', ax.setVec l = .ok ax' ∧ ∀ (k : Nat) (hk : k < l.length), ax'.ratio k = .ok l[k] := by
  have hlen := h.len
  have hmin : ∀ (xs : List Int) (x : Int), (∀ y ∈ x :: xs, 1 ≤ y) → 1 ≤ xs.foldl min x := by
    intro xs
    induction xs with
    | nil => intro x hx; exact hx x (by simp)
    | cons z zs ih =>
      intro x hx
      simp only [List.foldl_cons]
      apply ih
      intro y hy
      have h1 := hx x (by simp)
      have h2 := hx z (by simp)
      rcases List.mem_cons.1 hy with rfl | hy
      · omega
      · exact hx y (by simp [hy])
  have bounds : ∀ (xs : List Int) (x : Int), ∀ y ∈ x :: xs, xs.foldl min x ≤ y ∧ y ≤ xs.foldl max x := by
    intro xs
    induction xs with
    | nil => intro x y hy; simp at hy; subst hy; simp
    | cons z zs ih =>
      intro x y hy
      simp only [List.foldl_cons]
      have hh1 := (ih (min x z) (min x z) (by simp)).1
      have hh2 := (ih (max x z) (max x z) (by simp)).2
      rcases List.mem_cons.1 hy with rfl | hy
      · omega
      · rcases List.mem_cons.1 hy with rfl | hy
        · omega
        · exact ⟨(ih (min x z) y (by simp [hy])).1, (ih (max x z) y (by simp [hy])).2⟩
  cases l with
  | nil => simp at hlen; omega
  | cons x xs =>
    have hm := hmin xs x h.least
    have hall := bounds xs x
    have b1 : (((x :: xs).length : Int) == ax.coarse) = true := by rw [hc, hlen]; simp
    have b2 : ((x :: xs).sum == ax.fine) = true := by rw [hfine]; simp
    by_cases heq : xs.foldl min x = xs.foldl max x
    · have hconst : ∀ y ∈ x :: xs, y = xs.foldl min x := by
        intro y hy; have := hall y hy; omega
      have hrep : x :: xs = List.replicate (x :: xs).length (xs.foldl min x) :=
        List.eq_replicate_iff.2 ⟨rfl, hconst⟩
      have hsum : ax.fine = ax.coarse * xs.foldl min x := by
        rw [hfine, hrep, sum_replicate, hc, ← hlen]
      have hc0 : 0 < ax.coarse := by omega
      have hmod : Int.fmod ax.fine ax.coarse = 0 := by
        rw [Int.fmod_eq_emod_of_nonneg _ (by omega), hsum, Int.mul_emod_right]
      have hdiv : Int.fdiv ax.fine ax.coarse = xs.foldl min x := by
        rw [Int.fdiv_eq_ediv_of_nonneg _ (by omega), hsum, Int.mul_ediv_cancel_left _ (by omega)]
      refine ⟨{ ax with const := some (xs.foldl min x), vec := none }, ?_, ?_⟩
      · simp only [Axis.setVec, vmin, vmax, ok_bind, b1, b2, pyAssert_true]
        rw [show (decide (List.foldl min x xs > 0)) = true by simp; omega]
        simp only [pyAssert_true, ok_bind, if_pos heq, Axis.setConst, if_neg (show ¬ ax.coarse = 0 by omega),
          hmod, hdiv, beq_self_eq_true, pure, Except.pure]
      · intro k hk
        simp only [Axis.ratio]
        rw [hconst _ (List.getElem_mem hk)]
    · refine ⟨{ ax with vec := some (x :: xs), const := none }, ?_, ?_⟩
      · simp only [Axis.setVec, vmin, vmax, ok_bind, b1, b2, pyAssert_true]
        rw [show (decide (List.foldl min x xs > 0)) = true by simp; omega]
        simp only [pyAssert_true, ok_bind, if_neg heq]
        rfl
      · intro k hk
        simp only [Axis.ratio]
        exact pyGet_nat _ k hk

example : IsTartan 3 1 1 4 [2, 4, 1] := by
  refine ⟨rfl, ?_, by decide, ?_, ?_⟩ <;> intro k h <;>
    (have : k = 0 ∨ k = 1 ∨ k = 2 := by simp at h; omega) <;>
    rcases this with rfl | rfl | rfl <;> first | exact absurd h (by decide) | simp_all

end Verif.FineCoarse
