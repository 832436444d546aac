import Verif.Wells.Model
import Verif.Wells.Spec
import Mathlib.Tactic.Linarith
import Mathlib.Tactic.FieldSimp
import Mathlib.Tactic.Ring
import Mathlib.Tactic.LinearCombination
import Mathlib.Tactic.Module
import Mathlib.Tactic.NormNum
import Mathlib.Tactic.Push
import Mathlib.Algebra.Order.Ring.Rat
import Mathlib.Algebra.Field.Rat

/-! # C66, C67: points at measured depths, cells and intervals of blocked wells -/

namespace Verif.Wells
open Verif.Py Spec

variable {K : Type*} [Field K] [LinearOrder K] [IsStrictOrderedRing K]
variable {V : Type*} [AddCommGroup V] [Module K V]

/-! ## C66 -/

/-- a trajectory as loaded or computed: measured depths increase, first and last of them are the start and the finish -/
structure Traj.Good (t : Traj K V) : Prop where
  two : 2 ≤ t.knots
  inc : Increasing t.knots t.md
  start : t.start = t.md 0
  finish : t.finish = t.md (t.knots - 1)

theorem search_spec (t : Traj K V) (m : K) (h : Increasing t.knots t.md) : ∀ d i1 i2 : ℕ, i2 - i1 = d → i1 < i2 → i2 < t.knots →
    t.md i1 < m → m ≤ t.md i2 → ∃ i, i1 ≤ i ∧ i < i2 ∧ t.md i < m ∧ m ≤ t.md (i + 1) ∧
      search t m i1 i2 = interpolate (t.cp i) (t.cp (i + 1)) ((m - t.md i) / (t.md (i + 1) - t.md i)) := by
  intro d
  induction d using Nat.strong_induction_on with
  | _ d ih =>
    intro i1 i2 hd h12 hn h1 h2
    rw [search]
    by_cases hb : i2 - i1 ≤ 1
    · rw [if_pos hb, if_neg (ne_of_gt h1)]
      have e : i2 = i1 + 1 := by omega
      subst e
      exact ⟨i1, Nat.le_refl _, by omega, h1, h2, rfl⟩
    · rw [if_neg hb]
      by_cases hm : m ≤ t.md (i1 + (i2 - i1) / 2)
      · rw [if_pos hm]
        obtain ⟨i, a, b, c⟩ := ih (i1 + (i2 - i1) / 2 - i1) (by omega) i1 _ rfl (by omega) (by omega) h1 hm
        exact ⟨i, a, by omega, c⟩
      · rw [if_neg hm]
        obtain ⟨i, a, b, c⟩ := ih (i2 - (i1 + (i2 - i1) / 2)) (by omega) _ i2 rfl (by omega) hn (not_le.1 hm) h2
        exact ⟨i, by omega, b, c⟩

theorem Increasing.le {n : ℕ} {md : ℕ → K} (h : Increasing n md) {i j : ℕ} (hij : i ≤ j) (hj : j < n) : md i ≤ md j := by
  rcases Nat.lt_or_eq_of_le hij with h' | rfl
  · exact (h i j h' hj).le
  · exact le_refl _

/-- at most one point of a path is at a given measured depth -/
theorem onPath_unique {n : ℕ} {md : ℕ → K} {cp : ℕ → V} (h : Increasing n md) {m : K} {p q : V}
    (hp : OnPath n md cp m p) (hq : OnPath n md cp m q) : p = q := by
  have aux : ∀ {i j : ℕ} {f g : K}, i < j → i + 1 < n → j + 1 < n → 0 ≤ f → f ≤ 1 → 0 ≤ g → g ≤ 1 →
      m = (1 - f) * md i + f * md (i + 1) → m = (1 - g) * md j + g * md (j + 1) →
      (1 - f) • cp i + f • cp (i + 1) = (1 - g) • cp j + g • cp (j + 1) := by
    intro i j f g hij hi hj f0 f1 g0 g1 e1 e2
    have a1 := h i (i + 1) (by omega) hi
    have a2 := h j (j + 1) (by omega) hj
    have a3 := Increasing.le h (show i + 1 ≤ j by omega) (by omega)
    have b1 : m ≤ md (i + 1) := by rw [e1]; nlinarith [mul_le_mul_of_nonneg_left a1.le (sub_nonneg.2 f1)]
    have b2 : md j ≤ m := by rw [e2]; nlinarith [mul_le_mul_of_nonneg_left a2.le g0]
    have c1 : m = md (i + 1) := le_antisymm b1 (a3.trans b2)
    have c2 : m = md j := le_antisymm (b1.trans a3) b2
    have hf : f = 1 := by
      have : (1 - f) * (md (i + 1) - md i) = 0 := by rw [c1] at e1; linear_combination e1
      rcases mul_eq_zero.1 this with h' | h'
      · linarith
      · linarith
    have hg : g = 0 := by
      have : g * (md (j + 1) - md j) = 0 := by rw [c2] at e2; linear_combination -e2
      rcases mul_eq_zero.1 this with h' | h'
      · exact h'
      · linarith
    have hj' : j = i + 1 := by
      by_contra hc
      have := h (i + 1) j (by omega) (by omega)
      rw [c1] at c2
      linarith
    subst hf hg hj'
    simp
  obtain ⟨i, f, hi, f0, f1, e1, rfl⟩ := hp
  obtain ⟨j, g, hj, g0, g1, e2, rfl⟩ := hq
  rcases Nat.lt_trichotomy i j with hij | rfl | hij
  · exact aux hij hi hj f0 f1 g0 g1 e1 e2
  · have a1 := h i (i + 1) (by omega) hi
    have : (f - g) * (md (i + 1) - md i) = 0 := by linear_combination e2 - e1
    rcases mul_eq_zero.1 this with h' | h'
    · rw [sub_eq_zero.1 h']
    · linarith
  · exact (aux hij hj hi g0 g1 f0 f1 e2 e1).symm

theorem onPath_range {n : ℕ} {md : ℕ → K} {cp : ℕ → V} (h : Increasing n md) {m : K} {p : V} (hp : OnPath n md cp m p) :
    md 0 ≤ m ∧ m ≤ md (n - 1) := by
  obtain ⟨i, f, hi, f0, f1, e1, -⟩ := hp
  have a1 := h i (i + 1) (by omega) hi
  have a2 := Increasing.le h (Nat.zero_le i) (by omega)
  have a3 := Increasing.le h (show i + 1 ≤ n - 1 by omega) (by omega)
  constructor
  · refine a2.trans ?_; rw [e1]; nlinarith [mul_le_mul_of_nonneg_left a1.le f0]
  · refine le_trans ?_ a3; rw [e1]; nlinarith [mul_le_mul_of_nonneg_left a1.le (sub_nonneg.2 f1)]

theorem xyz_search (t : Traj K V) (ht : t.Good) (m : K) (h0 : 0 ≤ t.md 0) (h1 : t.md 0 < m) (h2 : m ≤ t.md (t.knots - 1)) :
    ∃ p, xyzForMd t m = some p ∧ OnPath t.knots t.md t.cp m p := by
  have ht2 := ht.two
  unfold xyzForMd
  rw [if_neg (by rw [ht.finish]; push Not; exact ⟨h0.trans h1.le, h2, h2⟩), if_neg (by rw [ht.start]; exact not_le.2 h1)]
  obtain ⟨i, a, b, c, d, e⟩ := search_spec t m ht.inc _ 0 (t.knots - 1) rfl (by omega) (by omega) h1 h2
  refine ⟨_, rfl, i, (m - t.md i) / (t.md (i + 1) - t.md i), by omega, ?_, ?_, ?_, ?_⟩
  · exact div_nonneg (by linarith) (by linarith)
  · rw [div_le_one (by linarith)]; linarith
  · have : t.md (i + 1) - t.md i ≠ 0 := by intro h; linarith
    field_simp; ring
  · rw [e, interpolate, add_comm]

/-- For a trajectory starting below its datum, the point returned for a measured depth is the point at that measured depth on the path
from the datum through the knots, and there is one exactly for the measured depths from zero to the finish. -/
theorem C66_xyz (t : Traj K V) (ht : t.Good) (h0 : 0 < t.md 0) (m : K) (p : V) :
    xyzForMd t m = some p ↔ OnPath (t.knots + 1) (before 0 t.md) (before t.datum t.cp) m p := by
  have ht2 := ht.two
  have hinc : Increasing (t.knots + 1) (before 0 t.md) := by
    intro i j hij hj
    cases j with
    | zero => omega
    | succ j =>
      cases i with
      | zero => exact lt_of_lt_of_le h0 (Increasing.le ht.inc (Nat.zero_le j) (by omega))
      | succ i => exact ht.inc i j (by omega) (by omega)
  have hsome : 0 ≤ m → m ≤ t.md (t.knots - 1) → ∃ p, xyzForMd t m = some p ∧ OnPath (t.knots + 1) (before 0 t.md) (before t.datum t.cp) m p := by
    intro a b
    by_cases hs : m ≤ t.md 0
    · unfold xyzForMd
      rw [if_neg (by rw [ht.finish]; push Not; exact ⟨a, b, b⟩), if_pos (by rw [ht.start]; exact hs), ht.start, if_neg (ne_of_gt h0)]
      refine ⟨_, rfl, 0, m / t.md 0, by omega, div_nonneg a h0.le, by rw [div_le_one h0]; exact hs, ?_, ?_⟩
      · have := ne_of_gt h0
        simp only [before]
        field_simp; ring
      · simp only [before, interpolate]; rw [add_comm]
    · obtain ⟨p, e, i, f, hi, c⟩ := xyz_search t ht m h0.le (not_le.1 hs) b
      exact ⟨p, e, i + 1, f, by omega, c⟩
  constructor
  · intro h
    have hr : 0 ≤ m ∧ m ≤ t.md (t.knots - 1) := by
      by_contra hc
      unfold xyzForMd at h
      rw [if_pos (by rw [ht.finish]; by_contra hn; push Not at hn; exact hc ⟨hn.1, hn.2.2⟩)] at h
      cases h
    obtain ⟨q, e, hq⟩ := hsome hr.1 hr.2
    rw [h] at e
    cases e
    exact hq
  · intro hp
    have hr := onPath_range hinc hp
    have hk : t.knots + 1 - 1 = (t.knots - 1) + 1 := by omega
    rw [hk] at hr
    obtain ⟨q, e, hq⟩ := hsome hr.1 hr.2
    rw [e, onPath_unique hinc hp hq]

/-- For a trajectory starting at its datum, the point returned is the point of the path through the knots, given that the first knot is at the datum. -/
theorem C66_xyz_datum (t : Traj K V) (ht : t.Good) (h0 : t.md 0 = 0) (hd : t.datum = t.cp 0) (m : K) (p : V) :
    xyzForMd t m = some p ↔ OnPath t.knots t.md t.cp m p := by
  have ht2 := ht.two
  have hsome : 0 ≤ m → m ≤ t.md (t.knots - 1) → ∃ p, xyzForMd t m = some p ∧ OnPath t.knots t.md t.cp m p := by
    intro a b
    by_cases hs : m ≤ t.md 0
    · unfold xyzForMd
      rw [if_neg (by rw [ht.finish]; push Not; exact ⟨a, b, b⟩), if_pos (by rw [ht.start]; exact hs), ht.start, if_pos h0]
      refine ⟨_, rfl, 0, 0, by omega, le_refl _, zero_le_one, ?_, ?_⟩
      · have : m = 0 := le_antisymm (by rw [← h0]; exact hs) a
        rw [this, h0]; ring
      · rw [hd]; simp
    · exact xyz_search t ht m (by rw [h0]) (not_le.1 hs) b
  constructor
  · intro h
    have hr : 0 ≤ m ∧ m ≤ t.md (t.knots - 1) := by
      by_contra hc
      unfold xyzForMd at h
      rw [if_pos (by rw [ht.finish]; by_contra hn; push Not at hn; exact hc ⟨hn.1, hn.2.2⟩)] at h
      cases h
    obtain ⟨q, e, hq⟩ := hsome hr.1 hr.2
    rw [h] at e
    cases e
    exact hq
  · intro hp
    have hr := onPath_range ht.inc hp
    rw [h0] at hr
    obtain ⟨q, e, hq⟩ := hsome hr.1 hr.2
    rw [e, onPath_unique ht.inc hp hq]

/-- The knots themselves are returned for their measured depths. -/
theorem C66_knots (t : Traj K V) (ht : t.Good) (h0 : 0 < t.md 0) (i : ℕ) (hi : i < t.knots) : xyzForMd t (t.md i) = some (t.cp i) := by
  rw [C66_xyz t ht h0]
  exact ⟨i, 1, by omega, zero_le_one, le_refl _, by simp [before], by simp [before]⟩

/-- three knots of a deviated well, below a datum at the origin -/
def exTraj : Traj ℚ (ℚ × ℚ × ℚ) :=
  ⟨3, fun i => 100 * (i + 1), fun i => (if i = 2 then 60 else 0, 0, if i = 2 then 280 else 100 * (i + 1)), 100, 300, (0, 0, 0)⟩

theorem exTraj_good : exTraj.Good := by
  refine ⟨by decide, ?_, by norm_num [exTraj], by norm_num [exTraj]⟩
  intro i j hij _
  have : (i : ℚ) < j := by exact_mod_cast hij
  simp only [exTraj]
  linarith

example : xyzForMd exTraj 250 = some (30, 0, 240) :=
  (C66_xyz exTraj exTraj_good (by norm_num [exTraj]) 250 _).2
    ⟨2, 1 / 2, by decide, by norm_num, by norm_num, by norm_num [exTraj, before], by norm_num [exTraj, before]⟩

example : xyzForMd exTraj 301 = none := by
  unfold xyzForMd
  rw [if_pos (Or.inr (Or.inl (by norm_num [exTraj])))]

/-! ## C67 -/

/-- a blocked well as checked when loaded: one grid index for each interval, as many of them not negative as there are cells, and increasing
measured depths -/
structure Blocked.Good (b : Blocked K) : Prop where
  len : b.gi.length + 1 = b.nodes
  cells : (b.gi.filter (fun g => decide (0 ≤ g))).length = b.cells
  inc : Increasing b.nodes b.md

/-- the positions, from `ii` on, of the blocked intervals -/
def blockedFrom : List ℤ → ℕ → List ℕ
  | [], _ => []
  | g :: gs, ii => if g < 0 then blockedFrom gs (ii + 1) else ii :: blockedFrom gs (ii + 1)

theorem blockedFrom_length (gi : List ℤ) (ii : ℕ) : (blockedFrom gi ii).length = (gi.filter (fun g => decide (0 ≤ g))).length := by
  induction gi generalizing ii with
  | nil => rfl
  | cons g gs ih =>
    unfold blockedFrom
    by_cases hg : g < 0
    · rw [if_pos hg, List.filter_cons_of_neg (by simpa using hg), ih]
    · rw [if_neg hg, List.filter_cons_of_pos (by simpa using hg), List.length_cons, List.length_cons, ih]

theorem cellIntervalFrom_eq (gi : List ℤ) (ii : ℕ) (pre : List ℕ) (k : ℕ) (hk : k = (blockedFrom gi ii).length) :
    cellIntervalFrom gi ii pre.length (pre ++ List.replicate k 0) = .ok (pre ++ blockedFrom gi ii, pre.length + k) := by
  induction gi generalizing ii pre k with
  | nil => subst hk; simp [cellIntervalFrom, blockedFrom]
  | cons g gs ih =>
    unfold cellIntervalFrom blockedFrom
    unfold blockedFrom at hk
    by_cases hg : g < 0
    · rw [if_pos hg] at hk ⊢
      rw [if_pos hg]
      exact ih (ii + 1) pre k hk
    · rw [if_neg hg] at hk ⊢
      rw [if_neg hg]
      rw [List.length_cons] at hk
      subst hk
      rw [if_pos (by simp)]
      have e : (pre ++ List.replicate ((blockedFrom gs (ii + 1)).length + 1) 0).set pre.length ii =
          (pre ++ [ii]) ++ List.replicate (blockedFrom gs (ii + 1)).length 0 := by
        rw [List.replicate_succ]
        simp
      have := ih (ii + 1) (pre ++ [ii]) _ rfl
      rw [List.length_append, List.length_singleton] at this
      rw [e, this]
      simp; omega

theorem blockedFrom_get (gi : List ℤ) (ii ci k : ℕ) :
    (blockedFrom gi ii)[ci]? = some k ↔ ii ≤ k ∧ IntervalOfCell gi ci (k - ii) := by
  induction gi generalizing ii ci with
  | nil =>
    constructor
    · intro h; simp [blockedFrom] at h
    · rintro ⟨-, ⟨g, h, -⟩, -⟩; simp at h
  | cons g gs ih =>
    unfold blockedFrom
    by_cases hg : g < 0
    · rw [if_pos hg, ih]
      constructor
      · rintro ⟨h1, ⟨g', h2, h3⟩, h4⟩
        refine ⟨by omega, ⟨g', ?_, h3⟩, ?_⟩
        · rw [show k - ii = (k - (ii + 1)) + 1 by omega, List.getElem?_cons_succ]; exact h2
        · rw [show k - ii = (k - (ii + 1)) + 1 by omega, List.take_succ_cons, List.filter_cons_of_neg (by simpa using hg)]; exact h4
      · rintro ⟨h1, ⟨g', h2, h3⟩, h4⟩
        have hne : k ≠ ii := by
          rintro rfl
          simp at h2
          omega
        rw [show k - ii = (k - (ii + 1)) + 1 by omega, List.getElem?_cons_succ] at h2
        rw [show k - ii = (k - (ii + 1)) + 1 by omega, List.take_succ_cons, List.filter_cons_of_neg (by simpa using hg)] at h4
        exact ⟨by omega, ⟨g', h2, h3⟩, h4⟩
    · rw [if_neg hg]
      cases ci with
      | zero =>
        simp only [List.getElem?_cons_zero, Option.some.injEq]
        constructor
        · rintro rfl
          refine ⟨Nat.le_refl _, ⟨g, by simp, by omega⟩, by simp⟩
        · rintro ⟨h1, -, h4⟩
          by_contra hne
          rw [show k - ii = (k - (ii + 1)) + 1 by omega, List.take_succ_cons, List.filter_cons_of_pos (by simpa using hg)] at h4
          simp at h4
      | succ ci =>
        rw [List.getElem?_cons_succ, ih]
        constructor
        · rintro ⟨h1, ⟨g', h2, h3⟩, h4⟩
          refine ⟨by omega, ⟨g', ?_, h3⟩, ?_⟩
          · rw [show k - ii = (k - (ii + 1)) + 1 by omega, List.getElem?_cons_succ]; exact h2
          · rw [show k - ii = (k - (ii + 1)) + 1 by omega, List.take_succ_cons, List.filter_cons_of_pos (by simpa using hg),
              List.length_cons, h4]
        · rintro ⟨h1, ⟨g', h2, h3⟩, h4⟩
          have hne : k ≠ ii := by
            rintro rfl
            simp at h4
          rw [show k - ii = (k - (ii + 1)) + 1 by omega, List.getElem?_cons_succ] at h2
          rw [show k - ii = (k - (ii + 1)) + 1 by omega, List.take_succ_cons, List.filter_cons_of_pos (by simpa using hg),
              List.length_cons] at h4
          exact ⟨by omega, ⟨g', h2, h3⟩, by omega⟩

theorem cellIntervalMap_eq (b : Blocked K) (hb : b.Good) : cellIntervalMap b = .ok (blockedFrom b.gi 0) := by
  unfold cellIntervalMap
  have h := cellIntervalFrom_eq b.gi 0 [] b.cells (by rw [blockedFrom_length, hb.cells])
  simp only [List.length_nil, List.nil_append, Nat.zero_add] at h
  rw [h]
  simp

theorem blockedFrom_all (gi : List ℤ) (h : ∀ g ∈ gi, 0 ≤ g) (ii ci : ℕ) (hc : ci < gi.length) : (blockedFrom gi ii)[ci]? = some (ii + ci) := by
  induction gi generalizing ii ci with
  | nil => simp at hc
  | cons g gs ih =>
    unfold blockedFrom
    rw [if_neg (not_lt.2 (h g (List.mem_cons_self)))]
    cases ci with
    | zero => simp
    | succ ci =>
      rw [List.getElem?_cons_succ, ih (fun g hg => h g (List.mem_cons_of_mem _ hg)) (ii + 1) ci (by simpa using hc)]
      congr 1; omega

/-- The interval found for a cell is the blocked interval with that many blocked intervals before it, whether or not there are unblocked
intervals, and there is one for each cell of the well. -/
theorem C67_interval (b : Blocked K) (hb : b.Good) (ci ii : ℕ) : intervalForCell b ci = .ok ii ↔ IntervalOfCell b.gi ci ii := by
  have key : (blockedFrom b.gi 0)[ci]? = some ii ↔ IntervalOfCell b.gi ci ii := by
    rw [blockedFrom_get]; simp
  have hlen := blockedFrom_length b.gi 0
  rw [hb.cells] at hlen
  unfold intervalForCell
  by_cases hc : ci < b.cells
  · rw [if_neg (not_not.2 hc)]
    by_cases hn : b.nodes = b.cells + 1
    · rw [if_pos hn, ← key]
      have hall : ∀ g ∈ b.gi, 0 ≤ g := by
        have h1 : (b.gi.filter (fun g => decide (0 ≤ g))).length = b.gi.length := by
          have := hb.len; have := hb.cells; omega
        intro g hg
        simpa using List.length_filter_eq_length_iff.1 h1 g hg
      rw [blockedFrom_all b.gi hall 0 ci (by have := hb.len; omega), Nat.zero_add]
      simp
    · rw [if_neg hn, cellIntervalMap_eq b hb]
      dsimp only
      rw [← key]
      cases h : (blockedFrom b.gi 0)[ci]? with
      | none => simp
      | some k => simp
  · rw [if_pos hc, ← key, List.getElem?_eq_none (by omega)]
    simp

theorem intervalOfCell_lt {gi : List ℤ} {ci ii : ℕ} (h : IntervalOfCell gi ci ii) : ii < gi.length := by
  obtain ⟨⟨g, h, -⟩, -⟩ := h
  exact (List.getElem?_eq_some_iff.1 h).1

/-- Every cell of the well has an interval. -/
theorem C67_cells_have_intervals (b : Blocked K) (hb : b.Good) (ci : ℕ) (hc : ci < b.cells) : ∃ ii, intervalForCell b ci = .ok ii := by
  have hlen := blockedFrom_length b.gi 0
  rw [hb.cells] at hlen
  obtain ⟨k, hk⟩ : ∃ k, (blockedFrom b.gi 0)[ci]? = some k := ⟨_, List.getElem?_eq_getElem (by omega)⟩
  refine ⟨k, (C67_interval b hb ci k).2 ?_⟩
  have := (blockedFrom_get b.gi 0 ci k).1 hk
  simpa using this.2

theorem wbCellFrom_spec (b : Blocked K) (m : K) (gi : List ℤ) : ∀ (rest : List ℤ) (i : ℕ) (ci : ℤ),
    gi.drop i = rest → ci = (((gi.take i).filter (fun g => decide (0 ≤ g))).length : ℤ) → b.md i ≤ m →
    (∀ k ≤ i, k ≠ 0 → b.md k < m) →
    (wbCellFrom b m rest i ci = (-1, 1) ∧ (∀ k, k < gi.length → b.md (k + 1) < m)) ∨
    ∃ (j : ℕ) (g : ℤ), gi[j]? = some g ∧ b.md j ≤ m ∧ m ≤ b.md (j + 1) ∧ (∀ k ≤ j, k ≠ 0 → b.md k < m) ∧
      wbCellFrom b m rest i ci = ((if g < 0 then -1 else (((gi.take j).filter (fun g => decide (0 ≤ g))).length : ℤ)),
        (m - b.md j) / (b.md (j + 1) - b.md j)) := by
  intro rest
  induction rest with
  | nil =>
    intro i ci hd hc hi hall
    left
    refine ⟨rfl, fun k hk => hall (k + 1) ?_ (by omega)⟩
    have := List.drop_eq_nil_iff.1 hd
    omega
  | cons g gs ih =>
    intro i ci hd hc hi hall
    have hlt : i < gi.length := by
      by_contra hcon
      rw [List.drop_eq_nil_iff.2 (by omega)] at hd
      cases hd
    have hcons := List.drop_eq_getElem_cons hlt
    rw [hd] at hcons
    injection hcons with hg hgs
    unfold wbCellFrom
    by_cases hm : m ≤ b.md (i + 1)
    · rw [if_pos hm]
      right
      refine ⟨i, g, by rw [List.getElem?_eq_getElem hlt, hg], hi, hm, hall, ?_⟩
      rw [hc]
    · rw [if_neg hm]
      refine ih (i + 1) _ hgs.symm ?_ (not_le.1 hm).le ?_
      · rw [List.take_add_one, List.getElem?_eq_getElem hlt, ← hg, List.filter_append, List.length_append, hc]
        by_cases h0 : 0 ≤ g
        · simp [h0]
        · simp [h0]
      · intro k hk hk0
        rcases Nat.lt_or_eq_of_le hk with h' | rfl
        · exact hall k (by omega) hk0
        · exact not_le.1 hm

theorem wbCell_cases (b : Blocked K) (m : K) :
    (m < b.md 0 ∧ wbCellForMd b m = (-1, 0)) ∨ (b.md 0 ≤ m ∧
    ((wbCellForMd b m = (-1, 1) ∧ (∀ k, k < b.gi.length → b.md (k + 1) < m)) ∨
    ∃ (j : ℕ) (g : ℤ), b.gi[j]? = some g ∧ b.md j ≤ m ∧ m ≤ b.md (j + 1) ∧ (∀ k ≤ j, k ≠ 0 → b.md k < m) ∧
      wbCellForMd b m = ((if g < 0 then -1 else (((b.gi.take j).filter (fun g => decide (0 ≤ g))).length : ℤ)),
        (m - b.md j) / (b.md (j + 1) - b.md j)))) := by
  unfold wbCellForMd
  by_cases h : m < b.md 0
  · left; exact ⟨h, if_pos h⟩
  · right
    rw [if_neg h]
    refine ⟨not_lt.1 h, ?_⟩
    exact wbCellFrom_spec b m b.gi b.gi 0 0 rfl (by simp) (not_lt.1 h) (fun k hk h0 => absurd (Nat.le_zero.1 hk) h0)

/-- A cell found for a measured depth is one whose entry and exit measured depths enclose it, and the fraction says how far in. -/
theorem C67_md_cell (b : Blocked K) (hb : b.Good) (m : K) (ci : ℕ) (f : K) (h : wbCellForMd b m = ((ci : ℤ), f)) :
    ∃ e x, entryAndExit b ci = .ok (e, x) ∧ e < x ∧ e ≤ m ∧ m ≤ x ∧ m = e + f * (x - e) := by
  rcases wbCell_cases b m with ⟨-, h'⟩ | ⟨-, ⟨h', -⟩ | ⟨j, g, hg, h1, h2, -, h'⟩⟩
  · rw [h] at h'; injection h' with h' _; omega
  · rw [h] at h'; injection h' with h' _; omega
  · rw [h] at h'
    injection h' with h3 h4
    have hg0 : ¬ g < 0 := by
      intro hc; rw [if_pos hc] at h3; omega
    rw [if_neg hg0] at h3
    have hI : intervalForCell b ci = .ok j := (C67_interval b hb ci j).2 ⟨⟨g, hg, by omega⟩, by exact_mod_cast h3.symm⟩
    have hlt := (List.getElem?_eq_some_iff.1 hg).1
    have hinc := hb.inc j (j + 1) (by omega) (by have := hb.len; omega)
    refine ⟨b.md j, b.md (j + 1), by unfold entryAndExit; rw [hI], hinc, h1, h2, ?_⟩
    have : b.md (j + 1) - b.md j ≠ 0 := by intro hz; linarith
    rw [h4]; field_simp; ring

/-- Each measured depth inside a cell is found to be in that cell. -/
theorem C67_cell_md (b : Blocked K) (hb : b.Good) (m : K) (ci : ℕ) (e x : K) (h : entryAndExit b ci = .ok (e, x)) (h1 : e < m) (h2 : m ≤ x) :
    wbCellForMd b m = ((ci : ℤ), (m - e) / (x - e)) := by
  unfold entryAndExit at h
  cases hI : intervalForCell b ci with
  | error er => rw [hI] at h; cases h
  | ok ii =>
    rw [hI] at h
    injection h with h
    injection h with he hx
    obtain ⟨⟨g, hg, hg0⟩, hcount⟩ := (C67_interval b hb ci ii).1 hI
    have hlt := (List.getElem?_eq_some_iff.1 hg).1
    have hlen := hb.len
    subst he hx
    rcases wbCell_cases b m with ⟨h', -⟩ | ⟨-, ⟨-, h'⟩ | ⟨j, g', hg', h3, h4, h5, h'⟩⟩
    · have := Increasing.le hb.inc (Nat.zero_le ii) (by omega)
      linarith
    · have := h' ii hlt
      linarith
    · have hjl := (List.getElem?_eq_some_iff.1 hg').1
      have hj : j = ii := by
        rcases Nat.lt_trichotomy j ii with hc | hc | hc
        · have := Increasing.le hb.inc (show j + 1 ≤ ii by omega) (by omega)
          linarith
        · exact hc
        · have := h5 (ii + 1) (by omega) (by omega)
          linarith
      subst hj
      rw [hg] at hg'
      cases hg'
      rw [h', if_neg (by omega), hcount]

/-- The answer `-1` is given exactly outside the range of the well, or in an interval that is not blocked. -/
theorem C67_md_none (b : Blocked K) (hb : b.Good) (m : K) (h : b.md 0 < m) (h' : m ≤ b.md (b.nodes - 1)) :
    (wbCellForMd b m).1 = -1 ↔ ∃ j g, b.gi[j]? = some g ∧ g < 0 ∧ b.md j < m ∧ m ≤ b.md (j + 1) := by
  have hlen := hb.len
  rcases wbCell_cases b m with ⟨h1, -⟩ | ⟨-, ⟨-, h1⟩ | ⟨j, g, hg, h3, h4, h5, h1⟩⟩
  · exact absurd h1 (not_lt.2 h.le)
  · exfalso
    by_cases hn : b.gi.length = 0
    · rw [show b.nodes - 1 = 0 by omega] at h'
      linarith
    · have := h1 (b.gi.length - 1) (by omega)
      rw [show b.gi.length - 1 + 1 = b.nodes - 1 by omega] at this
      linarith
  · have hstrict : b.md j < m := by
      by_cases h0 : j = 0
      · subst h0; exact h
      · exact h5 j (Nat.le_refl _) h0
    rw [h1]
    constructor
    · intro hc
      refine ⟨j, g, hg, ?_, hstrict, h4⟩
      by_contra hn
      dsimp only at hc
      rw [if_neg hn] at hc
      omega
    · rintro ⟨k, g', hk, hg', h6, h7⟩
      have hjl := (List.getElem?_eq_some_iff.1 hg).1
      have hkl := (List.getElem?_eq_some_iff.1 hk).1
      have hjk : k = j := by
        rcases Nat.lt_trichotomy k j with hc | hc | hc
        · have := h5 (k + 1) (by omega) (by omega)
          linarith
        · exact hc
        · have := Increasing.le hb.inc (show j + 1 ≤ k by omega) (by omega)
          linarith
      subst hjk
      rw [hg] at hk
      cases hk
      dsimp only
      rw [if_pos hg']

theorem mapCellFrom_get (gi : List ℤ) (h : ∀ g ∈ gi, -1 ≤ g) (n : ℕ) (ii ci : ℕ) :
    (mapCellFrom gi (n : ℤ))[ii]? = some ((n + ci : ℕ) : ℤ) ↔ IntervalOfCell gi ci ii := by
  induction gi generalizing n ii ci with
  | nil => simp [mapCellFrom, IntervalOfCell]
  | cons g gs ih =>
    have ih := ih (fun g hg => h g (List.mem_cons_of_mem _ hg))
    have hg := h g List.mem_cons_self
    unfold mapCellFrom
    by_cases h1 : g = -1
    · rw [if_pos h1]
      cases ii with
      | zero =>
        simp only [List.getElem?_cons_zero, Option.some.injEq]
        constructor
        · intro hc; omega
        · rintro ⟨⟨g', h2, h3⟩, -⟩
          simp at h2; omega
      | succ ii =>
        rw [List.getElem?_cons_succ, ih]
        unfold IntervalOfCell
        rw [List.getElem?_cons_succ, List.take_succ_cons, List.filter_cons_of_neg (by simp [h1])]
    · rw [if_neg h1]
      cases ii with
      | zero =>
        simp only [List.getElem?_cons_zero, Option.some.injEq]
        unfold IntervalOfCell
        simp only [List.getElem?_cons_zero, Option.some.injEq, List.take_zero, List.filter_nil, List.length_nil]
        constructor
        · intro hc; exact ⟨⟨g, rfl, by omega⟩, by omega⟩
        · rintro ⟨-, hc⟩; omega
      | succ ii =>
        rw [List.getElem?_cons_succ]
        have hpos : decide (0 ≤ g) = true := by simp; omega
        unfold IntervalOfCell
        rw [List.getElem?_cons_succ, List.take_succ_cons, List.filter_cons_of_pos (p := fun g => decide (0 ≤ g)) hpos, List.length_cons]
        cases ci with
        | zero =>
          constructor
          · intro hc
            exfalso
            have hge : ∀ (l : List ℤ) (k : ℤ), 0 ≤ k → ∀ y ∈ mapCellFrom l k, y = -1 ∨ k ≤ y := by
              intro l
              induction l with
              | nil => intro k _ y hy; simp [mapCellFrom] at hy
              | cons a l ihl =>
                intro k hk y hy
                unfold mapCellFrom at hy
                split at hy
                · rcases List.mem_cons.1 hy with rfl | hy
                  · left; rfl
                  · exact ihl k hk y hy
                · rcases List.mem_cons.1 hy with rfl | hy
                  · right; exact le_refl _
                  · rcases ihl (k + 1) (by omega) y hy with h' | h'
                    · left; exact h'
                    · right; omega
            have := hge gs ((n : ℤ) + 1) (by omega) _ (List.mem_of_getElem? hc)
            omega
          · rintro ⟨-, hc⟩; omega
        | succ ci =>
          have e : (n : ℤ) + 1 = ((n + 1 : ℕ) : ℤ) := by push_cast; ring
          rw [e, show n + (ci + 1) = (n + 1) + ci by omega, ih (n + 1) ii ci]
          unfold IntervalOfCell
          constructor
          · rintro ⟨a, c⟩; exact ⟨a, by omega⟩
          · rintro ⟨a, c⟩; exact ⟨a, by omega⟩

/-- The map from intervals to cells is the inverse of the map from cells to intervals (indices below -1 do not occur). -/
theorem C67_map (b : Blocked K) (hb : b.Good) (h : ∀ g ∈ b.gi, -1 ≤ g) (ii ci : ℕ) :
    (mapCell b)[ii]? = some (ci : ℤ) ↔ intervalForCell b ci = .ok ii := by
  rw [C67_interval b hb]
  have := mapCellFrom_get b.gi h 0 ii ci
  simpa [mapCell] using this

/-- The compressed grid indices are those of the intervals of the cells, in order. -/
theorem C67_compressed (b : Blocked K) (hb : b.Good) (ci ii : ℕ) (h : intervalForCell b ci = .ok ii) :
    ∃ l, compressed b = .ok l ∧ l.length = b.cells ∧ l[ci]? = b.gi[ii]? := by
  rw [C67_interval b hb] at h
  unfold compressed
  rw [if_pos hb.cells]
  refine ⟨_, rfl, hb.cells, ?_⟩
  obtain ⟨⟨g, hg, hg0⟩, hc⟩ := h
  have hlt := (List.getElem?_eq_some_iff.1 hg).1
  conv_lhs => rw [← List.take_append_drop ii b.gi]
  rw [List.filter_append, List.getElem?_append_right (by omega), hc, Nat.sub_self, List.drop_eq_getElem_cons hlt]
  have : b.gi[ii] = g := by
    rw [List.getElem?_eq_getElem hlt] at hg
    injection hg
  rw [this, List.filter_cons_of_pos (by simpa using hg0), hg]
  rfl

/-- five intervals, two of them not blocked, over two grids -/
def exWell : Blocked ℚ := ⟨6, fun i => 10 * i, [0, -1, 0, 1, -1], 3⟩

theorem exWell_good : exWell.Good := by
  refine ⟨by decide, by decide, ?_⟩
  intro i j hij _
  have : (i : ℚ) < j := by exact_mod_cast hij
  simp only [exWell]
  linarith

example : intervalForCell exWell 2 = .ok 3 := (C67_interval exWell exWell_good 2 3).2 ⟨⟨1, by decide, by decide⟩, by decide⟩

example : wbCellForMd exWell 35 = (2, 1 / 2) := by
  have h : entryAndExit exWell 2 = .ok (30, 40) := by
    unfold entryAndExit
    rw [(C67_interval exWell exWell_good 2 3).2 ⟨⟨1, by decide, by decide⟩, by decide⟩]
    norm_num [exWell]
  have := C67_cell_md exWell exWell_good 35 2 30 40 h (by norm_num) (by norm_num)
  rw [this]; norm_num

end Verif.Wells
