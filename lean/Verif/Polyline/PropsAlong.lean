import Verif.Polyline.Model
import Mathlib.Tactic.Positivity
import Mathlib.Tactic.FinCases
import Mathlib.Algebra.BigOperators.Group.Finset.Basic
import Mathlib.Algebra.BigOperators.Field
import Mathlib.Algebra.Order.BigOperators.Group.Finset

/-! # C130: points along a polyline -/

namespace Verif.Polyline
open Verif.Py
open Verif.Wells.Survey (V3)
open Verif.Rotate (length unitVector)
open Finset

/-! ## Specification -/

/-- distance between two points, in three dimensions or in plan -/
noncomputable def dist (inXy : Bool) (a b : V3) : ℝ :=
  if inXy then Real.sqrt ((b 0 - a 0) ^ 2 + (b 1 - a 1) ^ 2)
  else Real.sqrt ((b 0 - a 0) ^ 2 + (b 1 - a 1) ^ 2 + (b 2 - a 2) ^ 2)

/-- the ends of piece `i`: a closed line goes back to the first node after the last -/
def Line.start (l : Line) (i : Nat) : V3 := l.c i

def Line.stop (l : Line) (i : Nat) : V3 := if i + 1 = l.n then l.c 0 else l.c (i + 1)

/-- number of pieces -/
def Line.pieces (l : Line) : Nat := if l.closed then l.n else l.n - 1

/-- length of piece `i` -/
noncomputable def Line.len (l : Line) (inXy : Bool) (i : Nat) : ℝ := dist inXy (l.start i) (l.stop i)

/-- distance along the line to the start of piece `i` -/
noncomputable def Line.before (l : Line) (inXy : Bool) (i : Nat) : ℝ := ∑ j ∈ range i, l.len inXy j

/-- length of the line -/
noncomputable def Line.whole (l : Line) (inXy : Bool) : ℝ := l.before inXy l.pieces

/-- `q` is a point of the line at the distance `s` along it -/
def Line.Along (l : Line) (inXy : Bool) (s : ℝ) (q : V3) : Prop :=
  ∃ i < l.pieces, ∃ t : ℝ, 0 ≤ t ∧ t ≤ 1 ∧ (∀ a, q a = (1 - t) * l.start i a + t * l.stop i a) ∧ s = l.before inXy i + t * l.len inXy i

/-! ## Lemmas -/

theorem fin3 (a : Fin 3) : a = 0 ∨ a = 1 ∨ a = 2 := by
  fin_cases a <;> simp

theorem v2 (a b c : ℝ) : (![a, b, c] : V3) 2 = c := rfl

theorem length_eq (v : V3) : length v = Real.sqrt (v 0 * v 0 + v 1 * v 1 + v 2 * v 2) := by
  unfold length Verif.Rotate.dot
  rfl

theorem length_upTo (inXy : Bool) (a b : V3) : length (upTo inXy (b - a)) = dist inXy a b := by
  rw [length_eq]
  unfold upTo dist
  cases inXy
  · simp only [Bool.false_eq_true, if_false, Pi.sub_apply]
    congr 1
    ring
  · simp only [if_true, Pi.sub_apply, Matrix.cons_val_zero, Matrix.cons_val_one, Matrix.cons_val]
    congr 1
    ring

theorem len_nonneg (l : Line) (inXy : Bool) (i : Nat) : 0 ≤ l.len inXy i := by
  unfold Line.len dist
  split <;> exact Real.sqrt_nonneg _

theorem before_succ (l : Line) (inXy : Bool) (i : Nat) : l.before inXy (i + 1) = l.before inXy i + l.len inXy i :=
  Finset.sum_range_succ _ _

theorem before_nonneg (l : Line) (inXy : Bool) (i : Nat) : 0 ≤ l.before inXy i :=
  Finset.sum_nonneg fun j _ => len_nonneg l inXy j

theorem before_mono (l : Line) (inXy : Bool) {i j : Nat} (h : i ≤ j) : l.before inXy i ≤ l.before inXy j := by
  induction j, h using Nat.le_induction with
  | base => exact le_refl _
  | succ k _ ih =>
    rw [before_succ]
    linarith [len_nonneg l inXy k]

theorem segs_eq (l : Line) : l.segs = l.pieces := rfl

theorem successor_of (l : Line) {i : Nat} (h : i < l.pieces) : ∃ j, l.successor i = .ok j ∧ l.c j = l.stop i ∧ l.next i = j := by
  unfold Line.pieces at h
  unfold Line.successor Line.stop Line.next
  cases hc : l.closed
  · rw [hc] at h
    simp only [Bool.false_eq_true, if_false] at h ⊢
    have h1 : i + 1 < l.n := by omega
    have h2 : ¬ (i + 1 = l.n) := by omega
    rw [if_pos h1, if_neg h2]
    exact ⟨i + 1, rfl, rfl, Nat.mod_eq_of_lt h1⟩
  · rw [hc] at h
    simp only [if_true] at h ⊢
    rw [if_pos h]
    by_cases h2 : i + 1 = l.n
    · rw [if_pos h2, if_pos h2]
      exact ⟨0, rfl, rfl, by rw [h2]; exact Nat.mod_self _⟩
    · rw [if_neg h2, if_neg h2]
      exact ⟨i + 1, rfl, rfl, Nat.mod_eq_of_lt (by omega)⟩

theorem successor_out (l : Line) {i : Nat} (h : l.pieces ≤ i) : l.successor i = .error .assertion := by
  unfold Line.pieces at h
  unfold Line.successor
  cases hc : l.closed
  · rw [hc] at h
    simp only [Bool.false_eq_true, if_false] at h ⊢
    exact if_neg (by omega)
  · rw [hc] at h
    simp only [if_true] at h ⊢
    exact if_neg (by omega)

theorem next_of (l : Line) {i : Nat} (h : i < l.pieces) : l.c (l.next i) = l.stop i := by
  obtain ⟨j, _, h2, h3⟩ := successor_of l h
  rw [h3, h2]

theorem segmentLength_of (l : Line) (inXy : Bool) {i : Nat} (h : i < l.pieces) : l.segmentLength i inXy = .ok (l.len inXy i) := by
  obtain ⟨j, h1, h2, _⟩ := successor_of l h
  unfold Line.segmentLength
  rw [h1]
  simp only
  rw [length_upTo, h2]
  rfl

theorem lengthTo_of (l : Line) (inXy : Bool) : ∀ k, k ≤ l.pieces → l.lengthTo inXy k = .ok (l.before inXy k)
  | 0, _ => by
    unfold Line.lengthTo Line.before
    simp
  | k + 1, h => by
    unfold Line.lengthTo
    rw [lengthTo_of l inXy k (by omega), segmentLength_of l inXy (by omega), before_succ]

theorem fullLength_eq (l : Line) (inXy : Bool) : l.fullLength inXy = .ok (l.whole inXy) :=
  lengthTo_of l inXy _ (le_refl _)

/-- the walk from piece `i`, with the distance that is left -/
theorem walk_of (l : Line) (inXy : Bool) : ∀ (fuel i : Nat) (target : ℝ), l.pieces - i < fuel → i ≤ l.pieces → 0 ≤ target →
    (0 < target ∨ ∃ j, i ≤ j ∧ j < l.pieces ∧ 0 < l.len inXy j) → l.before inXy i + target ≤ l.whole inXy →
    ∃ q, l.walk inXy fuel i target = .ok q ∧ l.Along inXy (l.before inXy i + target) q
  | 0, i, _, h, _, _, _, _ => absurd h (by omega)
  | fuel + 1, i, target, hf, hi, ht, hpos, hle => by
    have hlt : i < l.pieces := by
      rcases Nat.lt_or_ge i l.pieces with h | h
      · exact h
      · exfalso
        have e : i = l.pieces := by omega
        rcases hpos with h0 | ⟨j, h1, h2, _⟩
        · rw [e] at hle
          unfold Line.whole at hle
          linarith
        · omega
    unfold Line.walk
    rw [segmentLength_of l inXy hlt]
    simp only
    by_cases hc : target > l.len inXy i ∨ l.len inXy i = 0
    · rw [if_pos hc]
      have ht' : 0 ≤ target - l.len inXy i := by
        rcases hc with h | h
        · linarith
        · linarith
      obtain ⟨q, hq, ha⟩ := walk_of l inXy fuel (i + 1) (target - l.len inXy i) (by omega) (by omega) ht' (by
        rcases hc with h | h
        · exact Or.inl (by linarith)
        · rcases hpos with h0 | ⟨j, h1, h2, h3⟩
          · exact Or.inl (by linarith)
          · refine Or.inr ⟨j, ?_, h2, h3⟩
            rcases Nat.lt_or_ge i j with h4 | h4
            · exact h4
            · have : j = i := by omega
              rw [this] at h3
              linarith) (by rw [before_succ]; linarith)
      refine ⟨q, hq, ?_⟩
      rw [before_succ] at ha
      have e : l.before inXy i + l.len inXy i + (target - l.len inXy i) = l.before inXy i + target := by ring
      rw [e] at ha
      exact ha
    · rw [if_neg hc]
      have h1 : target ≤ l.len inXy i := not_lt.mp fun h => hc (Or.inl h)
      have h2 : l.len inXy i ≠ 0 := fun h => hc (Or.inr h)
      have h3 : 0 < l.len inXy i := lt_of_le_of_ne (len_nonneg l inXy i) (Ne.symm h2)
      refine ⟨_, rfl, i, hlt, target / l.len inXy i, div_nonneg ht (le_of_lt h3), (div_le_one h3).mpr h1, ?_, ?_⟩
      · intro a
        rw [next_of l hlt]
        simp only [Pi.add_apply, Pi.smul_apply, smul_eq_mul]
        unfold Line.start
        ring
      · rw [div_mul_cancel₀ _ h2]

theorem isClose_zero (f : ℝ) : isClose f 0 ↔ f = 0 := by
  unfold isClose
  rw [sub_zero, abs_zero, max_eq_left (abs_nonneg f)]
  constructor
  · intro h
    have : 0 ≤ |f| := abs_nonneg f
    have : |f| = 0 := by norm_num at h; linarith
    exact abs_eq_zero.mp this
  · rintro rfl
    simp

theorem isClose_one {f : ℝ} (h0 : 0 ≤ f) (h1 : f ≤ 1) : isClose f 1 ↔ 1 - f ≤ 1e-9 := by
  unfold isClose
  rw [abs_one, abs_of_nonneg h0, max_eq_right h1, abs_of_nonpos (by linarith), mul_one, neg_sub]

theorem along_zero (l : Line) (inXy : Bool) (h : 0 < l.pieces) : l.Along inXy 0 (l.c 0) :=
  ⟨0, h, 0, le_refl _, zero_le_one, fun a => by unfold Line.start; ring, by unfold Line.before; simp⟩

theorem along_end (l : Line) (inXy : Bool) (h : 0 < l.pieces) :
    l.Along inXy (l.whole inXy) (if l.closed then l.c 0 else l.c (l.n - 1)) := by
  refine ⟨l.pieces - 1, by omega, 1, zero_le_one, le_refl _, ?_, ?_⟩
  · intro a
    have : l.stop (l.pieces - 1) = if l.closed then l.c 0 else l.c (l.n - 1) := by
      unfold Line.stop
      unfold Line.pieces at h ⊢
      cases hc : l.closed
      · rw [hc] at h
        simp only [Bool.false_eq_true, if_false] at h ⊢
        rw [if_neg (by omega)]
        congr 1
        omega
      · rw [hc] at h
        simp only [if_true] at h ⊢
        rw [if_pos (by omega)]
    rw [this]
    ring
  · unfold Line.whole
    obtain ⟨k, hk⟩ : ∃ k, l.pieces = k + 1 := ⟨l.pieces - 1, by omega⟩
    rw [hk, before_succ]
    simp

theorem exists_long (l : Line) (inXy : Bool) (h : 0 < l.whole inXy) : ∃ j < l.pieces, 0 < l.len inXy j := by
  by_contra hn
  push Not at hn
  have : l.whole inXy ≤ 0 := Finset.sum_nonpos fun j hj => hn j (Finset.mem_range.mp hj)
  linarith

theorem pieces_pos (l : Line) (inXy : Bool) (h : 0 < l.whole inXy) : 0 < l.pieces := by
  obtain ⟨j, hj, _⟩ := exists_long l inXy h
  omega

/-! ## Theorems -/

/-- C130: the length of a polyline is the sum of the lengths of its pieces, in three dimensions or in plan. -/
theorem C130_full_length (l : Line) (inXy : Bool) : l.fullLength inXy = .ok (∑ i ∈ range l.pieces, dist inXy (l.start i) (l.stop i)) :=
  fullLength_eq l inXy

/-- C130: the length of a piece, and its middle; there is none for an index which is not that of a piece. -/
theorem C130_segment (l : Line) (i : Nat) (inXy : Bool) :
    (i < l.pieces → l.segmentLength i inXy = .ok (dist inXy (l.start i) (l.stop i)) ∧
      ∃ m, l.segmentMidpoint i = .ok m ∧ ∀ a, m a = (l.start i a + l.stop i a) / 2) ∧
    (l.pieces ≤ i → l.segmentLength i inXy = .error .assertion ∧ l.segmentMidpoint i = .error .assertion) := by
  constructor
  · intro h
    refine ⟨segmentLength_of l inXy h, ?_⟩
    obtain ⟨j, h1, h2, _⟩ := successor_of l h
    unfold Line.segmentMidpoint
    rw [h1]
    refine ⟨_, rfl, fun a => ?_⟩
    simp only [Pi.smul_apply, Pi.add_apply, smul_eq_mul]
    rw [h2]
    unfold Line.start
    norm_num
    ring
  · intro h
    unfold Line.segmentLength Line.segmentMidpoint
    rw [successor_out l h]
    exact ⟨rfl, rfl⟩

/-- C130: the point for a fraction of a polyline of length other than zero is that at that fraction of its length along it, where pieces without
length are passed over.  A fraction between one and one less a thousand millionth is taken as one. -/
theorem C130_interpolated (l : Line) (inXy : Bool) (f : ℝ) (h0 : 0 ≤ f) (h1 : f ≤ 1) (hw : 0 < l.whole inXy) :
    ∃ q g, l.interpolated f inXy = .ok q ∧ l.Along inXy (g * l.whole inXy) q ∧ f ≤ g ∧ g ≤ 1 ∧ (g = f ∨ (g = 1 ∧ 1 - f ≤ 1e-9)) := by
  have hp := pieces_pos l inXy hw
  unfold Line.interpolated
  rw [if_neg (not_not.mpr ⟨h0, h1⟩)]
  by_cases hz : isClose f 0
  · rw [if_pos hz]
    have e := (isClose_zero f).mp hz
    refine ⟨_, f, rfl, ?_, le_refl _, h1, Or.inl rfl⟩
    rw [e, zero_mul]
    exact along_zero l inXy hp
  · rw [if_neg hz]
    have hf : 0 < f := lt_of_le_of_ne h0 fun e => hz ((isClose_zero f).mpr e.symm)
    by_cases ho : isClose f 1
    · rw [if_pos ho]
      refine ⟨_, 1, rfl, ?_, h1, le_refl _, Or.inr ⟨rfl, (isClose_one h0 h1).mp ho⟩⟩
      rw [one_mul]
      exact along_end l inXy hp
    · rw [if_neg ho, fullLength_eq]
      simp only
      obtain ⟨q, hq, ha⟩ := walk_of l inXy (l.segs + 1) 0 (f * l.whole inXy) (by rw [segs_eq]; omega) (by omega)
        (mul_nonneg h0 (le_of_lt hw)) (Or.inl (mul_pos hf hw)) (by
          have e : l.before inXy 0 = 0 := by unfold Line.before; simp
          rw [e, zero_add]
          nlinarith)
      refine ⟨q, f, hq, ?_, le_refl _, h1, Or.inl rfl⟩
      have e : l.before inXy 0 = 0 := by unfold Line.before; simp
      rw [e, zero_add] at ha
      exact ha

theorem dist_zero {a b : V3} (h : dist false a b = 0) : a = b := by
  unfold dist at h
  simp only [Bool.false_eq_true, if_false] at h
  have hs : (b 0 - a 0) ^ 2 + (b 1 - a 1) ^ 2 + (b 2 - a 2) ^ 2 = 0 := by
    rwa [Real.sqrt_eq_zero (by positivity)] at h
  have h0 : b 0 - a 0 = 0 := by nlinarith [sq_nonneg (b 0 - a 0), sq_nonneg (b 1 - a 1), sq_nonneg (b 2 - a 2)]
  have h1 : b 1 - a 1 = 0 := by nlinarith [sq_nonneg (b 0 - a 0), sq_nonneg (b 1 - a 1), sq_nonneg (b 2 - a 2)]
  have h2 : b 2 - a 2 = 0 := by nlinarith [sq_nonneg (b 0 - a 0), sq_nonneg (b 1 - a 1), sq_nonneg (b 2 - a 2)]
  funext x
  rcases fin3 x with rfl | rfl | rfl <;> linarith

/-- nodes without length between them are the same -/
theorem node_same (l : Line) {i j : Nat} (hij : i ≤ j) (hj : j < l.pieces) (h : l.before false i = l.before false j) : l.c i = l.c j := by
  induction j, hij using Nat.le_induction with
  | base => rfl
  | succ k hk ih =>
    have e1 := before_mono l false hk
    have e2 := before_succ l false k
    have e3 := len_nonneg l false k
    rw [ih (by omega) (by linarith)]
    have : l.len false k = 0 := by linarith
    have := dist_zero this
    rw [Line.start] at this
    rw [this, Line.stop]
    rw [if_neg]
    unfold Line.pieces at hj
    split at hj <;> omega

/-- C130: in three dimensions there is one point only at each distance along a polyline, except that a closed one begins and ends in the same
place: so the theorem on interpolation determines the result. -/
theorem C130_unique (l : Line) (s : ℝ) (p q : V3) (hp : l.Along false s p) (hq : l.Along false s q) : p = q := by
  have key : ∀ (p q : V3) (i j : Nat), i ≤ j → i < l.pieces → j < l.pieces →
      (∃ t : ℝ, 0 ≤ t ∧ t ≤ 1 ∧ (∀ a, p a = (1 - t) * l.start i a + t * l.stop i a) ∧ s = l.before false i + t * l.len false i) →
      (∃ t : ℝ, 0 ≤ t ∧ t ≤ 1 ∧ (∀ a, q a = (1 - t) * l.start j a + t * l.stop j a) ∧ s = l.before false j + t * l.len false j) →
      p = q := by
    intro p q i j hij hi hj ⟨t, t0, t1, hpt, hs⟩ ⟨u, u0, u1, hqu, hs'⟩
    rcases Nat.eq_or_lt_of_le hij with e | hlt
    · subst e
      by_cases hz : l.len false i = 0
      · have := dist_zero hz
        funext a
        rw [hpt a, hqu a, ← this]
        ring
      · have : t = u := by
          have : t * l.len false i = u * l.len false i := by linarith
          exact mul_right_cancel₀ hz this
        funext a
        rw [hpt a, hqu a, this]
    · -- both are the node at the start of piece `j`
      have hl := len_nonneg l false i
      have hl' := len_nonneg l false j
      have m := before_mono l false (i := i + 1) (j := j) hlt
      rw [before_succ] at m
      have x1 : t * l.len false i ≤ l.len false i := by nlinarith
      have x2 : 0 ≤ u * l.len false j := mul_nonneg u0 hl'
      have x3 : t * l.len false i = l.len false i := by linarith
      have x4 : u * l.len false j = 0 := by linarith
      have hstop : l.stop i = l.c (i + 1) := by
        unfold Line.stop
        rw [if_neg]
        unfold Line.pieces at hj
        split at hj <;> omega
      have hnode : l.c (i + 1) = l.c j := node_same l hlt hj (by rw [before_succ]; linarith)
      have ep : p = l.c j := by
        rw [← hnode]
        rcases mul_eq_zero.mp (show (1 - t) * l.len false i = 0 by linarith) with h | h
        · have ht : t = 1 := by linarith
          funext a
          rw [hpt a, ht, hstop]
          ring
        · have := dist_zero h
          funext a
          rw [hpt a, this, hstop]
          ring
      have eq : q = l.c j := by
        rcases mul_eq_zero.mp x4 with h | h
        · funext a
          rw [hqu a, h]
          unfold Line.start
          ring
        · have := dist_zero h
          funext a
          rw [hqu a, ← this]
          unfold Line.start
          ring
      rw [ep, eq]
  obtain ⟨i, hi, hp'⟩ := hp
  obtain ⟨j, hj, hq'⟩ := hq
  rcases Nat.le_total i j with h | h
  · exact key p q i j h hi hj hp' hq'
  · exact (key q p j i h hj hi hq' hp').symm

theorem interpolated_ends (l : Line) (inXy : Bool) :
    l.interpolated 0 inXy = .ok (l.c 0) ∧ l.interpolated 1 inXy = .ok (if l.closed then l.c 0 else l.c (l.n - 1)) := by
  constructor
  · unfold Line.interpolated
    rw [if_neg (by norm_num), if_pos ((isClose_zero 0).mpr rfl)]
  · unfold Line.interpolated
    rw [if_neg (by norm_num), if_neg (fun h => one_ne_zero ((isClose_zero 1).mp h)), if_pos]
    rw [isClose_one (by norm_num) (by norm_num)]
    norm_num

/-- C130: fraction zero is the first node and fraction one the last, or the first again if the polyline is closed, even if it is without length. -/
theorem C130_ends (l : Line) (inXy : Bool) :
    l.interpolated 0 inXy = .ok (l.c 0) ∧ l.interpolated 1 inXy = .ok (if l.closed then l.c 0 else l.c (l.n - 1)) :=
  interpolated_ends l inXy

/-- what is left of the sampling -/
theorem sample_of (l : Line) (inXy : Bool) (hw : 0 < l.whole inXy) (step : ℝ) (hs : 0 ≤ step) : ∀ (k m : Nat),
    (∀ i : Nat, i < k → ((m + i : Nat) : ℝ) * step ≤ 1) →
    ∃ r, l.sample inXy step k (min 1 (m * step)) = .ok r ∧ r.length = k ∧
      ∀ i < k, ∃ q g, r[i]? = some q ∧ l.Along inXy (g * l.whole inXy) q ∧ ((m + i : Nat) : ℝ) * step ≤ g ∧ g ≤ 1 ∧
        (g = ((m + i : Nat) : ℝ) * step ∨ (g = 1 ∧ 1 - ((m + i : Nat) : ℝ) * step ≤ 1e-9))
  | 0, m, _ => ⟨[], rfl, rfl, fun i h => absurd h (Nat.not_lt_zero i)⟩
  | k + 1, m, h => by
    have h0 : (m : ℝ) * step ≤ 1 := by simpa using h 0 (by omega)
    have hm : min 1 ((m : ℝ) * step) = (m : ℝ) * step := min_eq_right h0
    obtain ⟨q, g, hq, ha, hfg, hg1, hg⟩ := C130_interpolated l inXy (m * step) (by positivity) h0 hw
    have hst : stepped ((m : ℝ) * step) step = min 1 (((m + 1 : Nat) : ℝ) * step) := by
      unfold stepped
      have e : (m : ℝ) * step + step = ((m + 1 : Nat) : ℝ) * step := by push_cast; ring
      rw [e]
      by_cases hc : ((m + 1 : Nat) : ℝ) * step > 1
      · rw [if_pos hc, min_eq_left (le_of_lt hc)]
      · rw [if_neg hc, min_eq_right (not_lt.mp hc)]
    obtain ⟨r, hr, hlen, hall⟩ := sample_of l inXy hw step hs k (m + 1) (fun i hi => by
      have := h (i + 1) (by omega)
      rwa [show m + (i + 1) = m + 1 + i by omega] at this)
    unfold Line.sample
    rw [hm, hq, hst, hr]
    refine ⟨q :: r, rfl, by simp [hlen], ?_⟩
    intro i hi
    rcases Nat.eq_zero_or_pos i with h0 | h0
    · subst h0
      exact ⟨q, g, rfl, ha, by simpa using hfg, hg1, by simpa using hg⟩
    · obtain ⟨i', rfl⟩ : ∃ i', i = i' + 1 := ⟨i - 1, by omega⟩
      obtain ⟨q', g', h1, h2, h3, h4, h5⟩ := hall i' (by omega)
      rw [show m + 1 + i' = m + (i' + 1) by omega] at h3 h5
      exact ⟨q', g', by simpa using h1, h2, h3, h4, h5⟩

/-- C130: there are as many equidistant points as asked for, at equal distances along a polyline: from the first node to the last if it is open;
from the first node, to one step before it comes round, if it is closed. -/
theorem C130_equidistant (l : Line) (inXy : Bool) (n : Nat) (hn : 1 < n) (hw : 0 < l.whole inXy) :
    ∃ r, l.equidistant n inXy = .ok r ∧ r.length = n ∧
      ∀ k < n, ∃ q g, r[k]? = some q ∧ l.Along inXy (g * l.whole inXy) q ∧
        (g = k / (if l.closed then (n : ℝ) else (n : ℝ) - 1) ∨ (g = 1 ∧ 1 - k / (if l.closed then (n : ℝ) else (n : ℝ) - 1) ≤ 1e-9)) := by
  have hn' : (1 : ℝ) < n := by exact_mod_cast hn
  set d : ℝ := if l.closed then (n : ℝ) else (n : ℝ) - 1 with hd
  have hd0 : 0 < d := by
    rw [hd]
    split <;> linarith
  have hstep : (if l.closed then 1 / (n : ℝ) else 1 / ((n : ℝ) - 1)) = 1 / d := by
    rw [hd]
    split <;> rfl
  unfold Line.equidistant
  rw [if_neg (by omega), hstep]
  obtain ⟨r, hr, hlen, hall⟩ := sample_of l inXy hw (1 / d) (by positivity) n 0 (fun i hi => by
    rw [Nat.zero_add, mul_one_div, div_le_one hd0]
    have : (i : ℝ) ≤ (n : ℝ) - 1 := by
      have : (i : ℝ) + 1 ≤ n := by exact_mod_cast hi
      linarith
    rw [hd]
    split <;> linarith)
  refine ⟨r, ?_, hlen, ?_⟩
  · have : min (1 : ℝ) (((0 : Nat) : ℝ) * (1 / d)) = 0 := by simp
    rw [this] at hr
    exact hr
  · intro k hk
    obtain ⟨q, g, h1, h2, h3, h4, h5⟩ := hall k hk
    rw [Nat.zero_add, mul_one_div] at h3 h5
    exact ⟨q, g, h1, h2, h5⟩

/-! ### The centre -/

theorem weighted_of (l : Line) (inXy : Bool) (a : Fin 3) : ∀ k, k ≤ l.pieces →
    l.weighted inXy k a = ∑ i ∈ range k, l.len inXy i * (upTo inXy (l.start i) a + upTo inXy (l.stop i) a)
  | 0, _ => by simp [Line.weighted]
  | k + 1, h => by
    unfold Line.weighted
    simp only
    rw [Finset.sum_range_succ, Pi.add_apply, weighted_of l inXy a k (by omega), next_of l (by omega)]
    have e : upTo inXy (l.stop k) - upTo inXy (l.c k) = upTo inXy (l.stop k - l.c k) := by
      unfold upTo
      cases inXy
      · simp only [Bool.false_eq_true, if_false]
      · simp only [if_true]
        funext x
        rcases fin3 x with rfl | rfl | rfl <;> simp
    rw [e, length_upTo]
    rfl

/-- C130: the balanced centre of a polyline of length other than zero, if none is cached, is the mean of its points weighted by length: each piece
contributes its middle in proportion to its length.  In plan, the depth of the centre is zero. -/
theorem C130_centre (l : Line) (cached : Option V3) (n : Nat) (cache inXy : Bool) (h : cache = false ∨ cached = none) (hw : 0 < l.whole inXy) :
    ∃ c, l.balancedCentre cached false n cache inXy = .ok (c, if cache then some c else cached) ∧
      ∀ a, c a * l.whole inXy = ∑ i ∈ range l.pieces, l.len inXy i * (if inXy ∧ a = 2 then 0 else (l.start i a + l.stop i a) / 2) := by
  have hc : l.computedCentre false n inXy = .ok ((1 / (2 * l.whole inXy)) • l.weighted inXy l.segs) := by
    unfold Line.computedCentre
    rw [if_neg (by simp), fullLength_eq]
  refine ⟨(1 / (2 * l.whole inXy)) • l.weighted inXy l.segs, ?_, ?_⟩
  · unfold Line.balancedCentre
    rcases h with rfl | rfl
    · simp only [hc]
    · cases cache <;> simp only [hc]
  · intro a
    rw [Pi.smul_apply, smul_eq_mul, segs_eq, weighted_of l inXy a _ (le_refl _)]
    rw [show ∀ x w : ℝ, 1 / (2 * w) * x * w = (x / 2) * (w / w) from fun x w => by ring, div_self (ne_of_gt hw), mul_one, Finset.sum_div]
    refine Finset.sum_congr rfl fun i _ => ?_
    unfold upTo
    cases inXy
    · simp only [Bool.false_eq_true, if_false, false_and]
      ring
    · rcases fin3 a with rfl | rfl | rfl
      · simp
        ring
      · simp
        ring
      · simp

/-- C130: the centre is within any half space, and so within the convex hull, of the nodes. -/
theorem C130_centre_within (l : Line) (n : Nat) (w : V3) (b : ℝ) (hw : 0 < l.whole false)
    (hb : ∀ i < l.n, w 0 * l.c i 0 + w 1 * l.c i 1 + w 2 * l.c i 2 ≤ b) :
    ∃ c, l.balancedCentre none false n true false = .ok (c, some c) ∧ w 0 * c 0 + w 1 * c 1 + w 2 * c 2 ≤ b := by
  obtain ⟨c, h1, h2⟩ := C130_centre l none n true false (Or.inr rfl) hw
  refine ⟨c, h1, ?_⟩
  simp only [Bool.false_eq_true, false_and, if_false] at h2
  have e : (w 0 * c 0 + w 1 * c 1 + w 2 * c 2) * l.whole false = ∑ i ∈ range l.pieces, l.len false i *
      (((w 0 * l.start i 0 + w 1 * l.start i 1 + w 2 * l.start i 2) + (w 0 * l.stop i 0 + w 1 * l.stop i 1 + w 2 * l.stop i 2)) / 2) := by
    have : (w 0 * c 0 + w 1 * c 1 + w 2 * c 2) * l.whole false = w 0 * (c 0 * l.whole false) + w 1 * (c 1 * l.whole false) + w 2 * (c 2 * l.whole false) := by
      ring
    rw [this, h2 0, h2 1, h2 2, Finset.mul_sum, Finset.mul_sum, Finset.mul_sum, ← Finset.sum_add_distrib, ← Finset.sum_add_distrib]
    refine Finset.sum_congr rfl fun i _ => ?_
    ring
  have le : (w 0 * c 0 + w 1 * c 1 + w 2 * c 2) * l.whole false ≤ b * l.whole false := by
    rw [e]
    have : b * l.whole false = ∑ i ∈ range l.pieces, l.len false i * b := by
      unfold Line.whole Line.before
      rw [Finset.mul_sum]
      exact Finset.sum_congr rfl fun i _ => mul_comm _ _
    rw [this]
    refine Finset.sum_le_sum fun i hi => mul_le_mul_of_nonneg_left ?_ (len_nonneg l false i)
    have hi' : i < l.n := by
      have := Finset.mem_range.mp hi
      unfold Line.pieces at this
      split at this <;> omega
    have x1 : w 0 * l.start i 0 + w 1 * l.start i 1 + w 2 * l.start i 2 ≤ b := hb i hi'
    have x2 : w 0 * l.stop i 0 + w 1 * l.stop i 1 + w 2 * l.stop i 2 ≤ b := by
      unfold Line.stop
      split
      · exact hb 0 (by omega)
      · exact hb (i + 1) (by omega)
    linarith
  exact le_of_mul_le_mul_right le hw

/-! ### New polylines from old -/

/-- C130: trimming keeps the pieces from one to another, open, with given points in place of the first and last of the nodes; the pieces asked for
must be between nodes in order, so the last piece of a closed polyline cannot be kept. -/
theorem C130_trimmed (l : Line) (s e : Nat) (p q : Option V3) :
    (s ≤ e ∧ e + 1 < l.n → ∃ m, l.trimmed s e p q = .ok m ∧ m.closed = false ∧ m.pieces = e - s + 1 ∧
      m.start 0 = p.getD (l.c s) ∧ m.stop (e - s) = q.getD (l.c (e + 1)) ∧
      (∀ i, 0 < i → i ≤ e - s → m.start i = l.start (s + i)) ∧ ∀ i, i < e - s → m.stop i = l.stop (s + i)) ∧
    (¬ (s ≤ e ∧ e + 1 < l.n) → l.trimmed s e p q = .error .assertion) := by
  constructor
  · rintro ⟨h1, h2⟩
    unfold Line.trimmed
    rw [if_neg (not_not.mpr h1), if_neg (not_not.mpr h2)]
    refine ⟨_, rfl, rfl, ?_, ?_, ?_, ?_, ?_⟩
    · unfold Line.pieces
      simp only [Bool.false_eq_true, if_false]
      omega
    · unfold Line.start replaced
      simp only
      rw [if_neg (by omega), if_pos trivial]
      rfl
    · unfold Line.stop replaced
      simp only
      rw [if_neg (by omega), if_pos (by omega)]
      congr 2
      omega
    · intro i i1 i2
      unfold Line.start
      simp only
      rw [if_neg (by omega), if_neg (by omega)]
    · intro i i1
      unfold Line.stop
      simp only
      rw [if_neg (by omega), if_neg (by omega), if_neg (by omega), if_neg (by omega)]
      rfl
  · intro h
    unfold Line.trimmed
    by_cases h1 : s ≤ e
    · rw [if_neg (not_not.mpr h1), if_pos (fun h2 => h ⟨h1, h2⟩)]
    · rw [if_pos h1]

theorem dist_scaled (inXy : Bool) (k : ℝ) (o a b : V3) : dist inXy (k • (a - o) + o) (k • (b - o) + o) = |k| * dist inXy a b := by
  unfold dist
  cases inXy
  · simp only [Bool.false_eq_true, if_false, Pi.add_apply, Pi.smul_apply, Pi.sub_apply, smul_eq_mul]
    rw [← Real.sqrt_sq_eq_abs, ← Real.sqrt_mul (sq_nonneg k)]
    congr 1
    ring
  · simp only [if_true, Pi.add_apply, Pi.smul_apply, Pi.sub_apply, smul_eq_mul]
    rw [← Real.sqrt_sq_eq_abs, ← Real.sqrt_mul (sq_nonneg k)]
    congr 1
    ring

theorem balanced_some (l : Line) (cached : Option V3) (n : Nat) (cache inXy : Bool) : ∃ c d, l.balancedCentre cached false n cache inXy = .ok (c, d) := by
  have hc : l.computedCentre false n inXy = .ok ((1 / (2 * l.whole inXy)) • l.weighted inXy l.segs) := by
    unfold Line.computedCentre
    rw [if_neg (by simp), fullLength_eq]
  unfold Line.balancedCentre
  cases cache <;> cases cached <;> simp only [hc] <;> exact ⟨_, _, rfl⟩

/-- C130: scaling a polyline multiplies all lengths by the factor (in magnitude), and by a factor of one is a copy. -/
theorem C130_scaled (l : Line) (cached : Option V3) (k : ℝ) :
    ∃ m, l.scaled cached k = .ok m ∧ m.n = l.n ∧ m.closed = l.closed ∧ (∀ inXy, m.fullLength inXy = .ok (|k| * l.whole inXy)) ∧
      (k = 1 → m.c = l.c) := by
  obtain ⟨c, d, h⟩ := balanced_some l cached 20 true false
  unfold Line.scaled
  rw [h]
  refine ⟨_, rfl, rfl, rfl, ?_, ?_⟩
  · intro inXy
    rw [fullLength_eq]
    congr 1
    unfold Line.whole Line.before
    rw [Finset.mul_sum]
    refine Finset.sum_congr rfl fun i _ => ?_
    unfold Line.len Line.start Line.stop
    simp only
    split <;> exact dist_scaled inXy k c _ _
  · intro hk
    simp only [hk, one_smul]
    funext i
    exact sub_add_cancel _ _

/-- C130: with no cached centre, a scaled polyline keeps its balanced centre in place. -/
theorem C130_scaled_centre (l : Line) (k : ℝ) (hk : k ≠ 0) (hw : 0 < l.whole false) (n : Nat) :
    ∃ m c, l.scaled none k = .ok m ∧ l.balancedCentre none false n true false = .ok (c, some c) ∧
      m.balancedCentre none false n true false = .ok (c, some c) := by
  obtain ⟨c, h1, h2⟩ := C130_centre l none 20 true false (Or.inr rfl) hw
  obtain ⟨c', h1', h2'⟩ := C130_centre l none n true false (Or.inr rfl) hw
  have ec : c' = c := by
    funext a
    exact mul_right_cancel₀ (ne_of_gt hw) ((h2' a).trans (h2 a).symm)
  subst ec
  have hl : ∀ i, Line.len { l with c := fun i => k • (l.c i - c') + c' } false i = |k| * l.len false i := by
    intro i
    unfold Line.len Line.start Line.stop
    simp only
    split <;> exact dist_scaled false k c' _ _
  have hwm : Line.whole { l with c := fun i => k • (l.c i - c') + c' } false = |k| * l.whole false := by
    unfold Line.whole Line.before
    rw [Finset.mul_sum]
    exact Finset.sum_congr rfl fun i _ => hl i
  have hm : 0 < Line.whole { l with c := fun i => k • (l.c i - c') + c' } false := by
    rw [hwm]
    exact mul_pos (abs_pos.mpr hk) hw
  obtain ⟨d, g1, g2⟩ := C130_centre { l with c := fun i => k • (l.c i - c') + c' } none n true false (Or.inr rfl) hm
  refine ⟨{ l with c := fun i => k • (l.c i - c') + c' }, c', ?_, h1', ?_⟩
  · unfold Line.scaled
    rw [h1]
  · have : d = c' := by
      funext a
      apply mul_right_cancel₀ (ne_of_gt hm)
      rw [g2 a, hwm]
      simp only [Bool.false_eq_true, false_and, if_false] at h2 ⊢
      have e : ∀ i ∈ range l.pieces, Line.len { l with c := fun i => k • (l.c i - c') + c' } false i *
          ((Line.start { l with c := fun i => k • (l.c i - c') + c' } i a + Line.stop { l with c := fun i => k • (l.c i - c') + c' } i a) / 2) =
          |k| * k * (l.len false i * ((l.start i a + l.stop i a) / 2)) + |k| * (1 - k) * c' a * l.len false i := by
        intro i _
        rw [hl]
        unfold Line.start Line.stop
        simp only
        split <;> simp only [Pi.add_apply, Pi.smul_apply, Pi.sub_apply, smul_eq_mul] <;> ring
      have ep : Line.pieces { l with c := fun i => k • (l.c i - c') + c' } = l.pieces := rfl
      rw [ep, Finset.sum_congr rfl e, Finset.sum_add_distrib, ← Finset.mul_sum, ← Finset.mul_sum, ← h2 a]
      have : ∑ i ∈ range l.pieces, l.len false i = l.whole false := rfl
      rw [this]
      ring
    rw [this] at g1
    exact g1

/-! ### Where the code does otherwise -/

/-- C130, negation: the cached centre is returned whatever is asked: after the centre in plan was asked for, the centre in three dimensions is
given with depth zero.  So a scaled copy of a polyline moves vertically. -/
theorem C130_cache_violated : ∃ (l : Line) (cached : Option V3) (c c' : V3),
    l.balancedCentre none false 20 true true = .ok (c, cached) ∧ l.balancedCentre cached false 20 true false = .ok (c', cached) ∧
      l.balancedCentre none false 20 true false ≠ .ok (c', cached) ∧ (∀ i < l.n, l.c i 2 = 5) ∧ c' 2 = 0 ∧
      ∃ m, l.scaled cached 2 = .ok m ∧ ∀ i < m.n, m.c i 2 = 10 := by
  set l : Line := { n := 2, c := fun i => ![3 * i, 4 * i, 5], closed := false } with hl
  have w : ∀ x, l.whole x = 5 := by
    intro x
    unfold Line.whole Line.before Line.pieces
    simp only [hl, Bool.false_eq_true, if_false]
    rw [Finset.sum_range_one]
    unfold Line.len dist Line.start Line.stop
    have : Real.sqrt 25 = 5 := by
      rw [show (25 : ℝ) = 5 ^ 2 by norm_num, Real.sqrt_sq (by norm_num)]
    cases x <;> norm_num [this, v2]
  obtain ⟨c, h1, h2⟩ := C130_centre l none 20 true true (Or.inr rfl) (by rw [w]; norm_num)
  obtain ⟨d, g1, g2⟩ := C130_centre l none 20 true false (Or.inr rfl) (by rw [w]; norm_num)
  have hc : c 2 = 0 := by
    have := h2 2
    rw [w] at this
    simp at this
    linarith
  refine ⟨l, some c, c, c, h1, rfl, ?_, fun i _ => by simp [hl], hc, ?_⟩
  · rw [g1]
    intro he
    have e : d = c := by
      have := Except.ok.inj he
      exact (Prod.mk.inj this).1
    have := g2 2
    rw [e, hc, w] at this
    unfold Line.pieces at this
    simp only [hl, Bool.false_eq_true, if_false] at this
    rw [Finset.sum_range_one] at this
    have hlen : Line.len l false 0 = 5 := by
      have := w false
      unfold Line.whole Line.before Line.pieces at this
      simp only [hl, Bool.false_eq_true, if_false] at this
      rw [Finset.sum_range_one] at this
      exact this
    rw [← hl, hlen] at this
    unfold Line.start Line.stop at this
    norm_num [hl, v2] at this
  · refine ⟨_, rfl, ?_⟩
    intro i _
    simp only [Pi.add_apply, Pi.smul_apply, Pi.sub_apply, smul_eq_mul, hc]
    simp [hl]
    norm_num

/-- C130, negation: for a polyline without length, all its nodes in one place, there is an assertion failure and no point, for a fraction which is
not that of an end. -/
theorem C130_no_length_violated (l : Line) (inXy : Bool) (f : ℝ) (h0 : 0 < f) (h1 : 1e-9 < 1 - f) (hn : ∀ i j, i < l.n → j < l.n → l.c i = l.c j) :
    l.interpolated f inXy = .error .assertion := by
  have hz : ∀ i < l.pieces, l.len inXy i = 0 := by
    intro i hi
    have hi' : i < l.n := by
      unfold Line.pieces at hi
      split at hi <;> omega
    have e : l.stop i = l.start i := by
      unfold Line.stop Line.start
      split
      · exact hn _ _ (by omega) hi'
      · exact hn _ _ (by omega) hi'
    unfold Line.len
    rw [e]
    unfold dist
    cases inXy <;> simp
  have hw : ∀ (fuel i : Nat) (t : ℝ), l.walk inXy fuel i t = .error .assertion := by
    intro fuel
    induction fuel with
    | zero => intro i t; rfl
    | succ k ih =>
      intro i t
      unfold Line.walk
      rcases Nat.lt_or_ge i l.pieces with h | h
      · rw [segmentLength_of l inXy h]
        simp only
        rw [if_pos (Or.inr (hz i h))]
        exact ih _ _
      · unfold Line.segmentLength
        rw [successor_out l h]
  have f1 : f ≤ 1 := by norm_num at h1; linarith
  unfold Line.interpolated
  rw [if_neg (not_not.mpr ⟨le_of_lt h0, f1⟩), if_neg (fun h => ne_of_gt h0 ((isClose_zero f).mp h)),
    if_neg (fun h => not_le.mpr h1 ((isClose_one (le_of_lt h0) f1).mp h)), fullLength_eq]
  exact hw _ _ _

/-! ## Cases -/

/-- three sides of a square in space, closed by the fourth -/
def square : Line := { n := 4, c := fun i => if i = 0 then ![0, 0, 7] else if i = 1 then ![0, 2, 7] else if i = 2 then ![2, 2, 7] else ![2, 0, 7], closed := true }

theorem square_len (x : Bool) : ∀ i < 4, square.len x i = 2 := by
  have : Real.sqrt 4 = 2 := by
    rw [show (4 : ℝ) = 2 ^ 2 by norm_num, Real.sqrt_sq (by norm_num)]
  intro i hi
  have : i = 0 ∨ i = 1 ∨ i = 2 ∨ i = 3 := by omega
  unfold Line.len dist Line.start Line.stop square
  rcases this with rfl | rfl | rfl | rfl <;> cases x <;> norm_num [this, v2]

theorem square_whole (x : Bool) : square.whole x = 8 := by
  unfold Line.whole Line.before
  have : square.pieces = 4 := rfl
  rw [this]
  simp only [Finset.sum_range_succ, Finset.sum_range_zero]
  rw [square_len x 0 (by omega), square_len x 1 (by omega), square_len x 2 (by omega), square_len x 3 (by omega)]
  norm_num

example : 0 < square.whole false ∧ 0 < square.pieces ∧ square.Along false 3 ![1, 2, 7] := by
  refine ⟨by rw [square_whole]; norm_num, by decide, 1, by decide, 1 / 2, by norm_num, by norm_num, ?_, ?_⟩
  · intro a
    unfold Line.start Line.stop square
    rcases fin3 a with rfl | rfl | rfl <;> norm_num [v2]
  · unfold Line.before
    rw [Finset.sum_range_one, square_len _ 0 (by omega), square_len _ 1 (by omega)]
    norm_num

/-- a line without length -/
example : ∀ i j, i < 3 → j < 3 → (Line.mk 3 (fun _ => ![1, 2, 3]) false).c i = (Line.mk 3 (fun _ => ![1, 2, 3]) false).c j :=
  fun _ _ _ _ => rfl

end Verif.Polyline
