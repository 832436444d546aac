import Verif.Polyline.Convex
import Verif.Polyline.PropsAlong
import Verif.Plane.PropsMeasure

/-! # C131: convexity, direction, normals and area of closed polylines -/

namespace Verif.Polyline
open Verif.Py
open Verif.Wells.Survey (V3)
open Verif.Rotate (length unitVector)
open Verif.Plane (areaOfTriangle cross3 C113_area length_mul length_nonneg)
open Finset

/-! ## Specification -/

/-- twice the signed area of the triangle of three points in plan: positive if they are in anticlockwise order with the second axis to the left of
the first -/
def left (a b c : V3) : ℝ := (b 0 - a 0) * (c 1 - a 1) - (b 1 - a 1) * (c 0 - a 0)

/-- the polygon is convex, in plan, and goes round once: every node is on the same side, given by the sign `σ`, of the line of every piece -/
def Line.OneSided (l : Line) (σ : ℝ) : Prop := ∀ i < l.n, ∀ m < l.n, 0 ≤ σ * left (l.start i) (l.stop i) (l.c m)

/-- no piece is without length in plan -/
def Line.NoRepeat (l : Line) : Prop := ∀ i < l.n, ¬ (l.start i 0 = l.stop i 0 ∧ l.start i 1 = l.stop i 1)

/-- the nodes are not all in one line -/
def Line.NotStraight (l : Line) : Prop := ∃ i < l.n, ∃ m < l.n, left (l.start i) (l.stop i) (l.c m) ≠ 0

/-- a convex polygon; `σ` is 1 if it goes round from the first axis towards the second, and -1 in the other direction -/
structure Line.Convex (l : Line) (σ : ℝ) : Prop where
  closed : l.closed = true
  three : 3 ≤ l.n
  sign : σ = 1 ∨ σ = -1
  oneSided : l.OneSided σ
  noRepeat : l.NoRepeat
  notStraight : l.NotStraight

/-- twice the area within a closed polyline in plan, by the shoelace formula, positive from the first axis towards the second -/
noncomputable def Line.shoelace (l : Line) : ℝ := ∑ i ∈ range l.n, (l.start i 0 * l.stop i 1 - l.start i 1 * l.stop i 0)

/-- where a point is on the map: distances east and north -/
def AxisOrder.east : AxisOrder → V3 → ℝ
  | .eastingNorthing, p => p 0
  | .northingEasting, p => p 1
  | .westingSouthing, p => -p 0
  | .southingWesting, p => -p 1
  | .northingWesting, p => -p 1
  | .westingNorthing, p => -p 0

def AxisOrder.north : AxisOrder → V3 → ℝ
  | .eastingNorthing, p => p 1
  | .northingEasting, p => p 0
  | .westingSouthing, p => -p 1
  | .southingWesting, p => -p 0
  | .northingWesting, p => p 0
  | .westingNorthing, p => p 1

/-- twice the area on the map, positive if anticlockwise with north up and east to the right -/
noncomputable def Line.mapArea (l : Line) (axes : AxisOrder) : ℝ :=
  ∑ i ∈ range l.n, (axes.east (l.start i) * axes.north (l.stop i) - axes.north (l.start i) * axes.east (l.stop i))

/-! ## Lemmas -/

theorem cw_eq (a b c : V3) : cw a b c = -left a b c := by
  unfold cw left
  ring

theorem back_one (l : Line) {i : Nat} (hi : i + 1 < l.n) : l.back (i + 1) 1 = l.c i := by
  unfold Line.back
  congr 1
  rw [show i + 1 + l.n - 1 = i + l.n by omega, Nat.add_mod_right, Nat.mod_eq_of_lt (by omega)]

theorem back_one_zero (l : Line) (h : 0 < l.n) : l.back 0 1 = l.c (l.n - 1) := by
  unfold Line.back
  congr 1
  rw [Nat.zero_add, Nat.mod_eq_of_lt (by omega)]

/-- the piece before a node -/
def Line.prev (l : Line) (node : Nat) : Nat := if node = 0 then l.n - 1 else node - 1

theorem prev_lt (l : Line) {node : Nat} (h : node < l.n) : l.prev node < l.n := by
  unfold Line.prev
  split <;> omega

theorem back_prev (l : Line) {node : Nat} (h : node < l.n) : l.back node 1 = l.start (l.prev node) ∧ l.c node = l.stop (l.prev node) := by
  unfold Line.prev Line.start Line.stop
  rcases Nat.eq_zero_or_pos node with e | e
  · subst e
    rw [back_one_zero l h, if_pos rfl, if_pos (by omega)]
    exact ⟨rfl, rfl⟩
  · obtain ⟨i, rfl⟩ : ∃ i, node = i + 1 := ⟨node - 1, by omega⟩
    rw [back_one l h, if_neg (by omega), Nat.add_sub_cancel, if_neg (by omega)]
    exact ⟨rfl, rfl⟩

theorem back_two (l : Line) {node : Nat} (h : node < l.n) (h2 : 2 ≤ l.n) : l.back node 2 = l.start (l.prev (l.prev node)) ∧
    l.back node 1 = l.stop (l.prev (l.prev node)) := by
  have hb := (back_prev l (prev_lt l h)).2
  have h1 := (back_prev l h).1
  rw [Line.start] at h1
  refine ⟨?_, h1.trans hb⟩
  unfold Line.back Line.start Line.prev
  congr 1
  by_cases e : node = 0
  · subst e
    rw [if_pos rfl, if_neg (by omega), Nat.zero_add, Nat.mod_eq_of_lt (by omega)]
    omega
  · rw [if_neg e]
    by_cases e1 : node = 1
    · subst e1
      rw [if_pos rfl, Nat.mod_eq_of_lt (by omega)]
      omega
    · rw [if_neg (by omega), show node + l.n - 2 = node - 2 + l.n by omega, Nat.add_mod_right, Nat.mod_eq_of_lt (by omega)]
      omega

theorem prev_surj (l : Line) {i : Nat} (h : i < l.n) : ∃ node < l.n, l.prev node = i := by
  by_cases e : i + 1 = l.n
  · exact ⟨0, by omega, by unfold Line.prev; rw [if_pos rfl]; omega⟩
  · exact ⟨i + 1, by omega, by unfold Line.prev; rw [if_neg (by omega)]; omega⟩

/-- sums over nodes of what belongs to the piece before -/
theorem sum_prev (l : Line) (g : Nat → ℝ) : ∑ node ∈ range l.n, g (l.prev node) = ∑ i ∈ range l.n, g i := by
  rcases Nat.eq_zero_or_pos l.n with h | h
  · rw [h]
    simp
  · obtain ⟨k, hk⟩ : ∃ k, l.n = k + 1 := ⟨l.n - 1, by omega⟩
    have e : ∀ i, l.prev (i + 1) = i := fun i => by unfold Line.prev; rw [if_neg (by omega)]; omega
    have e0 : l.prev 0 = k := by unfold Line.prev; rw [if_pos rfl]; omega
    rw [hk, Finset.sum_range_succ', Finset.sum_range_succ, e0]
    simp only [e]

/-- the ends of the pieces of a closed line are its nodes -/
theorem sum_stop (l : Line) (g : V3 → ℝ) : ∑ i ∈ range l.n, g (l.stop i) = ∑ i ∈ range l.n, g (l.c i) := by
  rw [← sum_prev l]
  refine Finset.sum_congr rfl fun node h => ?_
  rw [← (back_prev l (Finset.mem_range.mp h)).2]

theorem list_sum (f : Nat → ℝ) (n : Nat) : ((List.range n).map f).sum = ∑ i ∈ range n, f i := by
  induction n with
  | zero => simp
  | succ k ih => rw [List.range_succ, List.map_append, List.sum_append, ih, Finset.sum_range_succ]; simp

theorem list_sum_v (f : Nat → V3) (n : Nat) (a : Fin 3) : ((List.range n).map f).sum a = ∑ i ∈ range n, f i a := by
  induction n with
  | zero => simp
  | succ k ih => rw [List.range_succ, List.map_append, List.sum_append, Pi.add_apply, ih, Finset.sum_range_succ]; simp

theorem mean_eq (l : Line) (h : 0 < l.n) (a : Fin 3) : l.mean a * l.n = ∑ i ∈ range l.n, l.c i a := by
  unfold Line.mean meanOf
  rw [Pi.smul_apply, smul_eq_mul, list_sum_v, List.length_map, List.length_range]
  have : (l.n : ℝ) ≠ 0 := by
    have : (0 : ℝ) < l.n := by exact_mod_cast h
    exact ne_of_gt this
  rw [one_div, mul_comm, ← mul_assoc, mul_inv_cancel₀ this, one_mul]

/-- sides of the mean are means of sides -/
theorem left_mean (l : Line) (h : 0 < l.n) (a b : V3) : left a b l.mean * l.n = ∑ m ∈ range l.n, left a b (l.c m) := by
  have e0 := mean_eq l h 0
  have e1 := mean_eq l h 1
  have : ∀ m ∈ range l.n, left a b (l.c m) = (b 0 - a 0) * l.c m 1 - (b 1 - a 1) * l.c m 0 + ((b 1 - a 1) * a 0 - (b 0 - a 0) * a 1) := by
    intro m _
    unfold left
    ring
  rw [Finset.sum_congr rfl this, Finset.sum_add_distrib, Finset.sum_sub_distrib, ← Finset.mul_sum, ← Finset.mul_sum, ← e0, ← e1,
    Finset.sum_const, Finset.card_range, nsmul_eq_mul]
  unfold left
  ring

theorem left_rot (a b c : V3) : left c a b = left a b c := by
  unfold left
  ring

theorem natPos {n : Nat} (h : 0 < n) : (0 : ℝ) < n := by exact_mod_cast h

/-- the mean is on the same side as the nodes -/
theorem mean_side {l : Line} {σ : ℝ} (h : l.OneSided σ) {i : Nat} (hi : i < l.n) : 0 ≤ σ * left (l.start i) (l.stop i) l.mean := by
  have hn : 0 < l.n := by omega
  have e := left_mean l hn (l.start i) (l.stop i)
  have : 0 ≤ σ * left (l.start i) (l.stop i) l.mean * l.n := by
    rw [mul_assoc, e, Finset.mul_sum]
    exact Finset.sum_nonneg fun m hm => h i hi m (Finset.mem_range.mp hm)
  by_contra hc
  have := mul_neg_of_neg_of_pos (not_le.mp hc) (natPos hn)
  linarith

/-- twice the area is the sum over triangles to any point -/
theorem shoelace_fan (l : Line) (o : V3) : ∑ i ∈ range l.n, left (l.start i) (l.stop i) o = l.shoelace := by
  have : ∀ i ∈ range l.n, left (l.start i) (l.stop i) o = (l.start i 0 * l.stop i 1 - l.start i 1 * l.stop i 0) +
      (o 1 * (l.stop i 0) - o 1 * (l.c i 0)) - (o 0 * (l.stop i 1) - o 0 * (l.c i 1)) := by
    intro i _
    unfold left Line.start
    ring
  rw [Finset.sum_congr rfl this, Finset.sum_sub_distrib, Finset.sum_add_distrib, Finset.sum_sub_distrib, Finset.sum_sub_distrib, Finset.sum_sub_distrib,
    sum_stop l (fun v => o 1 * v 0), sum_stop l (fun v => o 0 * v 1)]
  unfold Line.shoelace
  rw [Finset.sum_sub_distrib]
  ring

theorem turn_eq (l : Line) {node : Nat} (h : node < l.n) (h2 : 2 ≤ l.n) :
    l.turn node = -left (l.start (l.prev (l.prev node))) (l.stop (l.prev (l.prev node))) (l.c node) := by
  unfold Line.turn
  rw [(back_two l h h2).1, (back_two l h h2).2, cw_eq]

/-- the turn at a node, in terms of three nodes in order round a closed line -/
theorem scan_of (ts : List ℝ) : ∀ b : Option Bool, (scanTurns ts b).1 = true →
    (∀ v, (scanTurns ts b).2 = some v → (∀ t ∈ ts, t = 0 ∨ (v = decide (t > 0))) ∧ (b = some v ∨ (b = none ∧ ∃ t ∈ ts, t ≠ 0))) ∧
    ((scanTurns ts b).2 = none → b = none ∧ ∀ t ∈ ts, t = 0) := by
  induction ts with
  | nil =>
    intro b _
    unfold scanTurns
    exact ⟨fun v h => ⟨fun t ht => absurd ht (by simp), Or.inl h⟩, fun h => ⟨h, fun t ht => absurd ht (by simp)⟩⟩
  | cons t ts ih =>
    intro b
    unfold scanTurns
    by_cases h0 : t = 0
    · rw [if_pos h0]
      intro h
      obtain ⟨h1, h2⟩ := ih b h
      refine ⟨fun v hv => ?_, fun hv => ?_⟩
      · obtain ⟨g1, g2⟩ := h1 v hv
        refine ⟨fun s hs => ?_, ?_⟩
        · rcases List.mem_cons.mp hs with rfl | hs
          · exact Or.inl h0
          · exact g1 s hs
        · rcases g2 with g2 | ⟨g2, s, hs, hs'⟩
          · exact Or.inl g2
          · exact Or.inr ⟨g2, s, List.mem_cons_of_mem _ hs, hs'⟩
      · obtain ⟨g1, g2⟩ := h2 hv
        refine ⟨g1, fun s hs => ?_⟩
        rcases List.mem_cons.mp hs with rfl | hs
        · exact h0
        · exact g2 s hs
    · rw [if_neg h0]
      cases b with
      | none =>
        simp only
        intro h
        obtain ⟨h1, h2⟩ := ih _ h
        refine ⟨fun v hv => ?_, fun hv => ?_⟩
        · obtain ⟨g1, g2⟩ := h1 v hv
          have ev : v = decide (t > 0) := by
            rcases g2 with g2 | ⟨g2, _⟩
            · exact (Option.some.inj g2).symm
            · exact absurd g2 (by simp)
          refine ⟨fun s hs => ?_, Or.inr ⟨trivial, t, List.mem_cons_self, h0⟩⟩
          rcases List.mem_cons.mp hs with rfl | hs
          · exact Or.inr ev
          · exact g1 s hs
        · exact absurd (h2 hv).1 (by simp)
      | some b =>
        simp only
        by_cases hb : b = decide (t > 0)
        · rw [if_pos hb]
          intro h
          obtain ⟨h1, h2⟩ := ih _ h
          refine ⟨fun v hv => ?_, fun hv => ?_⟩
          · obtain ⟨g1, g2⟩ := h1 v hv
            have ev : b = v := by
              rcases g2 with g2 | ⟨g2, _⟩
              · exact Option.some.inj g2
              · exact absurd g2 (by simp)
            refine ⟨fun s hs => ?_, Or.inl (by rw [ev])⟩
            rcases List.mem_cons.mp hs with rfl | hs
            · exact Or.inr (by rw [← ev, hb])
            · exact g1 s hs
          · exact absurd (h2 hv).1 (by simp)
        · rw [if_neg hb]
          intro h
          exact absurd h (by simp)

/-- turns of one sense are accepted -/
theorem scan_ok (ts : List ℝ) (v : Bool) (h : ∀ t ∈ ts, t = 0 ∨ v = decide (t > 0)) :
    scanTurns ts (some v) = (true, some v) ∧ ((∀ t ∈ ts, t = 0) → scanTurns ts none = (true, none)) ∧
      ((∃ t ∈ ts, t ≠ 0) → scanTurns ts none = (true, some v)) := by
  induction ts with
  | nil =>
    refine ⟨rfl, fun _ => rfl, ?_⟩
    rintro ⟨t, ht, _⟩
    exact absurd ht (by simp)
  | cons t ts ih =>
    obtain ⟨h1, h2, h3⟩ := ih fun s hs => h s (List.mem_cons_of_mem _ hs)
    by_cases h0 : t = 0
    · have e : ∀ b, scanTurns (t :: ts) b = scanTurns ts b := fun b => by
        conv_lhs => unfold scanTurns
        rw [if_pos h0]
      rw [e, e]
      refine ⟨h1, fun ha => h2 fun s hs => ha s (List.mem_cons_of_mem _ hs), ?_⟩
      rintro ⟨s, hs, hs0⟩
      rcases List.mem_cons.mp hs with rfl | hs
      · exact absurd h0 hs0
      · exact h3 ⟨s, hs, hs0⟩
    · have hv : v = decide (t > 0) := (h t List.mem_cons_self).resolve_left h0
      have e1 : scanTurns (t :: ts) (some v) = scanTurns ts (some v) := by
        conv_lhs => unfold scanTurns
        rw [if_neg h0]
        simp only
        rw [if_pos hv]
      have e2 : scanTurns (t :: ts) none = scanTurns ts (some v) := by
        conv_lhs => unfold scanTurns
        rw [if_neg h0]
        simp only
        rw [← hv]
      rw [e1, e2]
      exact ⟨h1, fun ha => absurd (ha t List.mem_cons_self) h0, fun _ => h1⟩

/-- the result of `is_convex` -/
theorem findConvex_iff (l : Line) (v : Bool) : l.findConvex = (true, some v) ↔
    3 ≤ l.n ∧ (∀ node < l.n, l.turn node = 0 ∨ v = decide (l.turn node > 0)) ∧ ∃ node < l.n, l.turn node ≠ 0 := by
  unfold Line.findConvex
  have hm : ∀ P : ℝ → Prop, (∀ t ∈ (List.range l.n).map l.turn, P t) ↔ ∀ node < l.n, P (l.turn node) := by
    intro P
    simp
  constructor
  · intro h
    by_cases h3 : l.n < 3
    · rw [if_pos h3] at h
      exact absurd h (by simp)
    · rw [if_neg h3] at h
      simp only at h
      obtain ⟨w, hw⟩ : ∃ w, (scanTurns ((List.range l.n).map l.turn) none).2 = some w := by
        cases hs : (scanTurns ((List.range l.n).map l.turn) none).2 with
        | none => rw [hs] at h; exact absurd h (by simp)
        | some w => exact ⟨w, rfl⟩
      rw [hw] at h
      simp only at h
      by_cases ht : (scanTurns ((List.range l.n).map l.turn) none).1 = true
      · rw [if_pos ht] at h
        have ev : w = v := by simpa using h
        obtain ⟨g1, g2⟩ := (scan_of _ none ht).1 w hw
        rw [ev] at g1 g2
        refine ⟨by omega, (hm _).mp g1, ?_⟩
        rcases g2 with g2 | ⟨_, t, ht, ht0⟩
        · exact absurd g2 (by simp)
        · obtain ⟨node, hnode, rfl⟩ := List.mem_map.mp ht
          exact ⟨node, List.mem_range.mp hnode, ht0⟩
      · rw [if_neg ht] at h
        exact absurd h (by simp)
  · rintro ⟨h3, hall, node, hnode, hne⟩
    rw [if_neg (by omega)]
    have := (scan_ok _ v ((hm _).mpr hall)).2.2 ⟨l.turn node, List.mem_map.mpr ⟨node, List.mem_range.mpr hnode, rfl⟩, hne⟩
    simp only [this, if_true]

theorem findConvex_fst (l : Line) : l.findConvex.1 = true ↔ ∃ v, l.findConvex = (true, some v) := by
  constructor
  · intro h
    unfold Line.findConvex at h ⊢
    by_cases h3 : l.n < 3
    · rw [if_pos h3] at h
      exact absurd h (by simp)
    · rw [if_neg h3] at h ⊢
      simp only at h ⊢
      cases hs : (scanTurns ((List.range l.n).map l.turn) none).2 with
      | none => rw [hs] at h; exact absurd h (by simp)
      | some w =>
        rw [hs] at h
        simp only at h ⊢
        by_cases ht : (scanTurns ((List.range l.n).map l.turn) none).1 = true
        · rw [if_pos ht]
          exact ⟨w, rfl⟩
        · rw [if_neg ht] at h
          exact absurd h (by simp)
  · rintro ⟨v, h⟩
    rw [h]

theorem sign_cases {σ x : ℝ} (hσ : σ = 1 ∨ σ = -1) (h : 0 ≤ σ * x) : -x = 0 ∨ decide (σ = -1) = decide (-x > 0) := by
  rcases hσ with rfl | rfl
  · by_cases e : x = 0
    · exact Or.inl (by rw [e, neg_zero])
    · refine Or.inr ?_
      have : 0 < x := lt_of_le_of_ne (by linarith) (Ne.symm e)
      rw [decide_eq_false (by norm_num), decide_eq_false (by linarith)]
  · by_cases e : x = 0
    · exact Or.inl (by rw [e, neg_zero])
    · refine Or.inr ?_
      have : x < 0 := lt_of_le_of_ne (by linarith) e
      rw [decide_eq_true (by norm_num), decide_eq_true (by linarith)]

/-- points in one line: if `c` is in line with `a` and `b`, and so on round, all are in line with the first two -/
theorem straight_of {a b p q r : V3} (hab : ¬ (a 0 = b 0 ∧ a 1 = b 1)) (hp : left a b p = 0) (hq : left a b q = 0) (hpq : ¬ (p 0 = q 0 ∧ p 1 = q 1))
    (hr : left p q r = 0) : left a b r = 0 := by
  unfold left at *
  have e : (b 0 - a 0) * (q 1 - p 1) = (b 1 - a 1) * (q 0 - p 0) := by linarith
  have goal : ((b 0 - a 0) * (r 1 - a 1) - (b 1 - a 1) * (r 0 - a 0)) = (b 0 - a 0) * (r 1 - p 1) - (b 1 - a 1) * (r 0 - p 0) := by linarith
  rw [goal]
  by_cases h0 : q 0 - p 0 = 0
  · have h1 : q 1 - p 1 ≠ 0 := fun h1 => hpq ⟨by linarith, by linarith⟩
    have x1 : (q 1 - p 1) * (b 0 - a 0) = 0 := by rw [mul_comm, e, h0, mul_zero]
    have x2 : b 0 - a 0 = 0 := (mul_eq_zero.mp x1).resolve_left h1
    have x3 : (q 1 - p 1) * (r 0 - p 0) = 0 := by
      rw [h0, zero_mul] at hr
      linarith
    have x4 : r 0 - p 0 = 0 := (mul_eq_zero.mp x3).resolve_left h1
    rw [x2, x4]
    ring
  · have : (q 0 - p 0) * ((b 0 - a 0) * (r 1 - p 1) - (b 1 - a 1) * (r 0 - p 0)) = 0 := by
      have : (q 0 - p 0) * ((b 0 - a 0) * (r 1 - p 1) - (b 1 - a 1) * (r 0 - p 0)) =
          (b 0 - a 0) * ((q 0 - p 0) * (r 1 - p 1)) - ((b 1 - a 1) * (q 0 - p 0)) * (r 0 - p 0) := by ring
      rw [this, ← e, show (q 0 - p 0) * (r 1 - p 1) = (q 1 - p 1) * (r 0 - p 0) by linarith]
      ring
    exact (mul_eq_zero.mp this).resolve_left h0

/-- if there is no turn at any node, all nodes are in one line -/
theorem all_straight (l : Line) (h3 : 3 ≤ l.n) (hr : l.NoRepeat) (ht : ∀ node < l.n, l.turn node = 0) :
    ∀ k < l.n, left (l.c 0) (l.c 1) (l.c k) = 0 := by
  have h01 : ¬ (l.c 0 0 = l.c 1 0 ∧ l.c 0 1 = l.c 1 1) := by
    have := hr 0 (by omega)
    unfold Line.start Line.stop at this
    rwa [if_neg (by omega)] at this
  have key : ∀ k, k + 1 < l.n → left (l.c 0) (l.c 1) (l.c k) = 0 ∧ left (l.c 0) (l.c 1) (l.c (k + 1)) = 0 := by
    intro k
    induction k with
    | zero =>
      intro _
      constructor <;> unfold left <;> ring
    | succ k ih =>
      intro hk
      obtain ⟨i1, i2⟩ := ih (by omega)
      refine ⟨i2, ?_⟩
      have hn := hr k (by omega)
      unfold Line.start Line.stop at hn
      rw [if_neg (by omega)] at hn
      refine straight_of h01 i1 i2 hn ?_
      have := ht (k + 2) (by omega)
      rw [turn_eq l (by omega) (by omega)] at this
      have e : l.prev (l.prev (k + 2)) = k := by
        unfold Line.prev
        rw [if_neg (show ¬ (k + 2 = 0) by omega), if_neg (by omega)]
        omega
      rw [e] at this
      unfold Line.start Line.stop at this
      rw [if_neg (by omega)] at this
      linarith
  intro k hk
  rcases Nat.eq_zero_or_pos k with e | e
  · subst e
    unfold left
    ring
  · obtain ⟨j, rfl⟩ : ∃ j, k = j + 1 := ⟨k - 1, by omega⟩
    exact (key j hk).2

theorem line_of_three {a b p q r : V3} (hab : ¬ (a 0 = b 0 ∧ a 1 = b 1)) (hp : left a b p = 0) (hq : left a b q = 0) (hr : left a b r = 0) :
    left p q r = 0 := by
  unfold left at *
  by_cases h0 : b 0 - a 0 = 0
  · have h1 : b 1 - a 1 ≠ 0 := fun h1 => hab ⟨by linarith, by linarith⟩
    rw [h0] at hp hq hr
    have x1 : p 0 - a 0 = 0 := (mul_eq_zero.mp (show (b 1 - a 1) * (p 0 - a 0) = 0 by linarith)).resolve_left h1
    have x2 : q 0 - a 0 = 0 := (mul_eq_zero.mp (show (b 1 - a 1) * (q 0 - a 0) = 0 by linarith)).resolve_left h1
    have x3 : r 0 - a 0 = 0 := (mul_eq_zero.mp (show (b 1 - a 1) * (r 0 - a 0) = 0 by linarith)).resolve_left h1
    rw [show q 0 - p 0 = 0 by linarith, show r 0 - p 0 = 0 by linarith]
    ring
  · have : (b 0 - a 0) * ((q 0 - p 0) * (r 1 - p 1) - (q 1 - p 1) * (r 0 - p 0)) = 0 := by
      have e1 : (b 0 - a 0) * (r 1 - p 1) = (b 1 - a 1) * (r 0 - p 0) := by linarith
      have e2 : (b 0 - a 0) * (q 1 - p 1) = (b 1 - a 1) * (q 0 - p 0) := by linarith
      have : (b 0 - a 0) * ((q 0 - p 0) * (r 1 - p 1) - (q 1 - p 1) * (r 0 - p 0)) =
          (q 0 - p 0) * ((b 0 - a 0) * (r 1 - p 1)) - ((b 0 - a 0) * (q 1 - p 1)) * (r 0 - p 0) := by ring
      rw [this, e1, e2]
      ring
    exact (mul_eq_zero.mp this).resolve_left h0

/-! ## Theorems -/

/-- C131: what `is_convex` decides, if metadata is not consulted: there are at least three nodes, not all in line with their neighbours, and no two
turns at nodes are in opposite directions. -/
theorem C131_turns (l : Line) (m : Meta) (hc : l.closed = true) : (l.isConvex m false).1 = true ↔
    3 ≤ l.n ∧ (∃ node < l.n, l.turn node ≠ 0) ∧ ∀ i < l.n, ∀ j < l.n, ¬ (l.turn i < 0 ∧ 0 < l.turn j) := by
  unfold Line.isConvex
  rw [if_neg (by rw [hc]; simp)]
  simp only
  rw [findConvex_fst]
  constructor
  · rintro ⟨v, hv⟩
    obtain ⟨h1, h2, h3⟩ := (findConvex_iff l v).mp hv
    refine ⟨h1, h3, ?_⟩
    rintro i hi j hj ⟨hi', hj'⟩
    have e1 := (h2 i hi).resolve_left (ne_of_lt hi')
    have e2 := (h2 j hj).resolve_left (ne_of_gt hj')
    rw [e1, decide_eq_false (by linarith), decide_eq_true hj'] at e2
    exact absurd e2 (by simp)
  · rintro ⟨h1, ⟨node, hn, hne⟩, h2⟩
    refine ⟨decide (l.turn node > 0), (findConvex_iff l _).mpr ⟨h1, ?_, node, hn, hne⟩⟩
    intro k hk
    rcases lt_trichotomy (l.turn k) 0 with h | h | h
    · refine Or.inr ?_
      rw [decide_eq_false (show ¬ (l.turn node > 0) from fun hp => h2 k hk node hn ⟨h, hp⟩), decide_eq_false (by linarith)]
    · exact Or.inl h
    · refine Or.inr ?_
      have : l.turn node > 0 := by
        rcases lt_trichotomy (l.turn node) 0 with g | g | g
        · exact absurd ⟨g, h⟩ (h2 node hn k hk)
        · exact absurd g hne
        · exact g
      rw [decide_eq_true this, decide_eq_true h]

theorem convex_found {l : Line} {σ : ℝ} (h : l.Convex σ) : l.findConvex = (true, some (decide (σ = -1))) := by
  have h2 : 2 ≤ l.n := by have := h.three; omega
  refine (findConvex_iff l _).mpr ⟨h.three, ?_, ?_⟩
  · intro node hn
    rw [turn_eq l hn h2]
    exact sign_cases h.sign (h.oneSided _ (prev_lt l (prev_lt l hn)) node hn)
  · by_contra hc
    push Not at hc
    have hall := all_straight l h.three h.noRepeat hc
    obtain ⟨i, hi, m, hm, hne⟩ := h.notStraight
    have h01 : ¬ (l.c 0 0 = l.c 1 0 ∧ l.c 0 1 = l.c 1 1) := by
      have := h.noRepeat 0 (by omega)
      unfold Line.start Line.stop at this
      rwa [if_neg (by omega)] at this
    refine hne (line_of_three h01 (hall i hi) ?_ (hall m hm))
    unfold Line.stop
    split
    · exact hall 0 (by omega)
    · exact hall (i + 1) (by omega)

/-- C131: a convex polygon, without repeated nodes and not in one line, is found to be convex. -/
theorem C131_convex (l : Line) (σ : ℝ) (m : Meta) (h : l.Convex σ) : (l.isConvex m false).1 = true ∧
    (l.isConvex m false).2.convex = some true := by
  unfold Line.isConvex
  rw [if_neg (by rw [h.closed]; simp)]
  simp only [convex_found h, and_self]

/-- C131: an open polyline is not convex, whatever its metadata. -/
theorem C131_open (l : Line) (m : Meta) (trust : Bool) (h : l.closed = false) : l.isConvex m trust = (false, m) := by
  unfold Line.isConvex
  rw [if_pos h]

/-- C131: the answer is kept in the metadata, and is the same when it is asked for again. -/
theorem C131_again (l : Line) (m : Meta) (trust trust' : Bool) (h : l.closed = true) :
    (l.isConvex m false).2.convex = some (l.isConvex m false).1 ∧
    (l.isConvex (l.isConvex m trust).2 true).1 = (l.isConvex m trust).1 ∧
    (m.convex = none → (l.isConvex m trust').1 = (l.isConvex m false).1) := by
  have hn : ¬ (l.closed = false) := by rw [h]; simp
  have e1 : (l.isConvex m false).2.convex = some (l.isConvex m false).1 := by
    unfold Line.isConvex
    rw [if_neg hn]
  refine ⟨e1, ?_, ?_⟩
  · have e : (l.isConvex m trust).2.convex = some (l.isConvex m trust).1 := by
      cases trust
      · exact e1
      · unfold Line.isConvex
        rw [if_neg hn]
        cases hm : m.convex <;> simp only [hm]
    generalize l.isConvex m trust = r at *
    unfold Line.isConvex
    rw [if_neg hn, e]
  · intro hm
    unfold Line.isConvex
    rw [if_neg hn, if_neg hn, hm]
    cases trust' <;> rfl

/-- a line between two points on the map, and its other side -/
theorem map_left (axes : AxisOrder) (a b : V3) :
    axes.east a * axes.north b - axes.north a * axes.east b = (if axes.rightHanded then -1 else 1) * (a 0 * b 1 - a 1 * b 0) := by
  cases axes <;> simp [AxisOrder.east, AxisOrder.north, AxisOrder.rightHanded] <;> ring

theorem mapArea_eq (l : Line) (axes : AxisOrder) : l.mapArea axes = (if axes.rightHanded then -1 else 1) * l.shoelace := by
  unfold Line.mapArea Line.shoelace
  rw [Finset.mul_sum]
  exact Finset.sum_congr rfl fun i _ => map_left axes _ _

/-- the area of a convex polygon has the sign of its direction -/
theorem shoelace_sign {l : Line} {σ : ℝ} (h : l.Convex σ) : 0 < σ * l.shoelace := by
  obtain ⟨i, hi, m, hm, hne⟩ := h.notStraight
  rw [← shoelace_fan l (l.c m), Finset.mul_sum]
  refine Finset.sum_pos' (fun j hj => h.oneSided j (Finset.mem_range.mp hj) m hm) ⟨i, Finset.mem_range.mpr hi, ?_⟩
  refine lt_of_le_of_ne (h.oneSided i hi m hm) (Ne.symm ?_)
  refine mul_ne_zero ?_ hne
  rcases h.sign with e | e <;> rw [e] <;> norm_num

/-- the mean of the nodes of a convex polygon is strictly inside of its first piece -/
theorem mean_strict {l : Line} {σ : ℝ} (h : l.Convex σ) : 0 < σ * left (l.c 0) (l.c 1) l.mean := by
  have h3 := h.three
  have hs : l.start 0 = l.c 0 ∧ l.stop 0 = l.c 1 := by
    unfold Line.start Line.stop
    rw [if_neg (by omega)]
    exact ⟨rfl, rfl⟩
  have h0 := mean_side h.oneSided (i := 0) (by omega)
  rw [hs.1, hs.2] at h0
  refine lt_of_le_of_ne h0 fun he => ?_
  have hσ : σ ≠ 0 := by
    rcases h.sign with e | e <;> rw [e] <;> norm_num
  have hz : left (l.c 0) (l.c 1) l.mean = 0 := (mul_eq_zero.mp he.symm).resolve_left hσ
  have hsum := left_mean l (by omega) (l.c 0) (l.c 1)
  rw [hz, zero_mul] at hsum
  have hall : ∀ k < l.n, left (l.c 0) (l.c 1) (l.c k) = 0 := by
    have hs0 : ∑ k ∈ range l.n, σ * left (l.c 0) (l.c 1) (l.c k) = 0 := by rw [← Finset.mul_sum, ← hsum, mul_zero]
    have hnn : ∀ k ∈ range l.n, 0 ≤ σ * left (l.c 0) (l.c 1) (l.c k) := by
      intro k hk
      have := h.oneSided 0 (by omega) k (Finset.mem_range.mp hk)
      rwa [hs.1, hs.2] at this
    intro k hk
    have := (Finset.sum_eq_zero_iff_of_nonneg hnn).mp hs0 k (Finset.mem_range.mpr hk)
    exact (mul_eq_zero.mp this).resolve_left hσ
  obtain ⟨i, hi, m, hm, hne⟩ := h.notStraight
  have h01 : ¬ (l.c 0 0 = l.c 1 0 ∧ l.c 0 1 = l.c 1 1) := by
    have := h.noRepeat 0 (by omega)
    rwa [hs.1, hs.2] at this
  refine hne (line_of_three h01 (hall i hi) ?_ (hall m hm))
  unfold Line.stop
  split
  · exact hall 0 (by omega)
  · exact hall (i + 1) (by omega)

theorem clockwise_found {l : Line} {σ : ℝ} (h : l.Convex σ) (m : Meta) (axes : AxisOrder) :
    l.isClockwise m false axes = .ok (xor (decide (σ = -1)) axes.rightHanded, { m with clockwise := some (xor (decide (σ = -1)) axes.rightHanded) }) := by
  have h3 := h.three
  unfold Line.isClockwise
  rw [if_neg (by rw [h.closed]; simp)]
  simp only
  rw [if_neg (by omega)]
  have e : decide (cw l.mean (l.c 0) (l.c 1) > 0) = decide (σ = -1) := by
    have hs := mean_strict h
    rw [cw_eq, left_rot]
    rcases h.sign with e | e <;> rw [e] at hs ⊢
    · rw [decide_eq_false (by linarith), decide_eq_false (by norm_num)]
    · rw [decide_eq_true (by linarith), decide_eq_true (by norm_num)]
  rw [e]
  cases axes.rightHanded <;> simp

/-- C131: for a convex polygon and any order of the axes, if metadata does not say otherwise, it is found to be clockwise just if it is so on the
map, with north up. -/
theorem C131_clockwise_partial (l : Line) (σ : ℝ) (m : Meta) (axes : AxisOrder) (trust : Bool) (h : l.Convex σ) (hm : trust = false ∨ m.clockwise = none) :
    ∃ b m', l.isClockwise m trust axes = .ok (b, m') ∧ (b = true ↔ l.mapArea axes < 0) ∧ m'.clockwise = some b ∧ m'.convex = m.convex := by
  have e : l.isClockwise m trust axes = l.isClockwise m false axes := by
    unfold Line.isClockwise
    rcases hm with rfl | hm
    · rfl
    · rw [hm]
      cases trust <;> rfl
  rw [e, clockwise_found h]
  refine ⟨_, _, rfl, ?_, rfl, rfl⟩
  rw [mapArea_eq]
  have hs := shoelace_sign h
  rcases h.sign with e | e <;> rw [e] at hs ⊢ <;> cases axes.rightHanded <;> norm_num <;> linarith

theorem length_flat {x : ℝ} {v : V3} (h0 : v 0 = 0) (h1 : v 1 = 0) (h2 : v 2 = x) : length v = |x| := by
  rw [length_eq, h0, h1, h2, ← Real.sqrt_mul_self_eq_abs]
  congr 1
  ring

/-- C131: the area of a convex polygon at one depth, with nothing in its metadata, is that of the shoelace formula. -/
theorem C131_area_partial (l : Line) (σ z sampled : ℝ) (m : Meta) (h : l.Convex σ) (hz : ∀ i < l.n, l.c i 2 = z) (hm : m.convex = none) :
    ∃ m', l.area m sampled = .ok (|l.shoelace| / 2, m') := by
  have h3 := h.three
  have hconv : (l.isConvex m true).1 = true := by
    rw [(C131_again l m true true h.closed).2.2 hm]
    exact (C131_convex l σ m h).1
  unfold Line.area
  rw [if_neg (by rw [h.closed]; simp)]
  simp only
  rw [if_pos hconv]
  refine ⟨(l.isConvex m true).2, ?_⟩
  congr 2
  have hmz : l.mean 2 = z := by
    have := mean_eq l (by omega) 2
    rw [Finset.sum_congr rfl fun i hi => hz i (Finset.mem_range.mp hi), Finset.sum_const, Finset.card_range, nsmul_eq_mul] at this
    exact mul_right_cancel₀ (ne_of_gt (natPos (show 0 < l.n by omega))) (this.trans (mul_comm _ _))
  have hstop : ∀ i < l.n, l.stop i 2 = z := by
    intro i hi
    unfold Line.stop
    split
    · exact hz 0 (by omega)
    · exact hz (i + 1) (by omega)
  have tri : ∀ node ∈ range l.n, areaOfTriangle l.mean (l.back node 1) (l.c node) =
      σ * left (l.start (l.prev node)) (l.stop (l.prev node)) l.mean / 2 := by
    intro node hn
    have hn' := Finset.mem_range.mp hn
    have hp := prev_lt l hn'
    rw [(back_prev l hn').1, (back_prev l hn').2, C113_area]
    have hside := mean_side h.oneSided hp
    have z1 : l.start (l.prev node) 2 = z := hz _ hp
    have z2 : l.stop (l.prev node) 2 = z := hstop _ hp
    have e : length (cross3 (l.start (l.prev node) - l.mean) (l.stop (l.prev node) - l.mean)) = |left (l.start (l.prev node)) (l.stop (l.prev node)) l.mean| := by
      rw [← left_rot]
      refine length_flat ?_ ?_ ?_
      · simp [cross3, z1, z2, hmz]
      · simp [cross3, z1, z2, hmz]
      · simp [cross3, left, v2]
    rw [e]
    rcases h.sign with e | e <;> rw [e] at hside ⊢
    · rw [abs_of_nonneg (by linarith), one_mul]
    · rw [abs_of_nonpos (by linarith), neg_one_mul]
  unfold Line.fanArea
  rw [list_sum, Finset.sum_congr rfl tri, ← Finset.sum_div, ← Finset.mul_sum,
    sum_prev l (fun i => left (l.start i) (l.stop i) l.mean), shoelace_fan]
  have hs := shoelace_sign h
  rcases h.sign with e | e <;> rw [e] at hs ⊢
  · rw [abs_of_pos (by linarith), one_mul]
  · rw [abs_of_neg (by linarith), neg_one_mul]

theorem leftNormal_of (l : Line) (i j : Nat) (b : V3) (hb : l.c j = b) (h : ¬ (l.c i 0 = b 0 ∧ l.c i 1 = b 1)) : ∃ k : ℝ, 0 < k ∧
    l.leftNormal i j = ![-(k * (b 1 - l.c i 1)), k * (b 0 - l.c i 0), 0] ∧ k ^ 2 * ((b 0 - l.c i 0) ^ 2 + (b 1 - l.c i 1) ^ 2) = 1 := by
  have hpos : 0 < (b 0 - l.c i 0) ^ 2 + (b 1 - l.c i 1) ^ 2 := by
    rcases not_and_or.mp h with g | g
    · have : b 0 - l.c i 0 ≠ 0 := fun e => g (by linarith)
      positivity
    · have : b 1 - l.c i 1 ≠ 0 := fun e => g (by linarith)
      positivity
  have hl : length (upTo true (l.c j - l.c i)) = Real.sqrt ((b 0 - l.c i 0) ^ 2 + (b 1 - l.c i 1) ^ 2) := by
    rw [length_upTo, hb]
    rfl
  have hl0 : 0 < length (upTo true (l.c j - l.c i)) := by
    rw [hl]
    exact Real.sqrt_pos.mpr hpos
  refine ⟨1 / length (upTo true (l.c j - l.c i)), by positivity, ?_, ?_⟩
  · unfold Line.leftNormal unitVector
    rw [if_neg (ne_of_gt hl0), hb]
    simp [upTo]
  · rw [hl, div_pow, one_pow, Real.sq_sqrt (le_of_lt hpos), one_div, inv_mul_cancel₀ (ne_of_gt hpos)]

/-- C131: with axes like easting and northing (the second a quarter turn anticlockwise from the first) and nothing in the metadata, the normal to a
piece of a convex polygon is horizontal, has length one, is at a right angle to the piece and points outwards: no node is on that side. -/
theorem C131_normal_partial (l : Line) (σ : ℝ) (m : Meta) (axes : AxisOrder) (h : l.Convex σ) (ha : axes.rightHanded = false) (hm : m.clockwise = none)
    {i : Nat} (hi : i < l.n) :
    ∃ v m', l.segmentNormal m axes i = .ok (v, m') ∧ v 2 = 0 ∧ v 0 ^ 2 + v 1 ^ 2 = 1 ∧
      v 0 * (l.stop i 0 - l.start i 0) + v 1 * (l.stop i 1 - l.start i 1) = 0 ∧
      ∀ k < l.n, v 0 * (l.c k 0 - l.start i 0) + v 1 * (l.c k 1 - l.start i 1) ≤ 0 := by
  have hp : i < l.pieces := by
    unfold Line.pieces
    rw [h.closed]
    exact hi
  obtain ⟨j, h1, h2, _⟩ := successor_of l hp
  have e : l.isClockwise m true axes = l.isClockwise m false axes := by
    unfold Line.isClockwise
    rw [hm]
  obtain ⟨k, k0, hk, hk1⟩ := leftNormal_of l i j _ h2 (h.noRepeat i hi)
  unfold Line.segmentNormal
  rw [h1]
  simp only
  rw [e, clockwise_found h, ha]
  simp only
  have hside := fun x hx => h.oneSided i hi x hx
  rcases h.sign with e | e
  · rw [e] at hside ⊢
    rw [if_neg (by norm_num), hk]
    refine ⟨_, _, rfl, by simp [v2], ?_, ?_, ?_⟩
    · simp
      linarith
    · simp [Line.start]
      ring
    · intro x hx
      have := hside x hx
      unfold left Line.start at this
      simp [Line.start]
      nlinarith
  · rw [e] at hside ⊢
    rw [if_pos (by norm_num), hk]
    refine ⟨_, _, rfl, by simp [v2], ?_, ?_, ?_⟩
    · simp
      linarith
    · simp [Line.start]
      ring
    · intro x hx
      have := hside x hx
      unfold left Line.start at this
      simp [Line.start]
      nlinarith

/-! ### Where the code does otherwise -/

/-- a list of nodes in plan as a closed line at one depth -/
noncomputable def ofList (ps : List (ℝ × ℝ)) : Line :=
  { n := ps.length, c := fun i => ![(ps.getD i (0, 0)).1, (ps.getD i (0, 0)).2, 0], closed := true }

/-- C131, negation: a star of five points, of which the pieces cross, is found to be convex though nodes are on both sides of pieces. -/
theorem C131_star_violated : ∃ l : Line, l.closed = true ∧ (l.isConvex ⟨none, none⟩ true).1 = true ∧ ∀ σ, ¬ l.Convex σ := by
  set l := ofList [(0, 4), (2, -3), (-4, 1), (4, 1), (-2, -3)] with hl
  refine ⟨l, rfl, ?_, ?_⟩
  · rw [(C131_again l ⟨none, none⟩ true true rfl).2.2 rfl, C131_turns l _ rfl]
    have hall : ∀ i < 5, 0 < l.turn i := by
      intro i hi
      have : i = 0 ∨ i = 1 ∨ i = 2 ∨ i = 3 ∨ i = 4 := by omega
      unfold Line.turn Line.back cw
      rcases this with rfl | rfl | rfl | rfl | rfl <;> norm_num [hl, ofList]
    refine ⟨by simp [hl, ofList], ⟨0, by simp [hl, ofList], ne_of_gt (hall 0 (by omega))⟩, ?_⟩
    rintro i hi j _ ⟨h1, _⟩
    have := hall i (by simpa [hl, ofList] using hi)
    linarith
  · intro σ h
    have a := h.oneSided 0 (by simp [hl, ofList]) 2 (by simp [hl, ofList])
    have b := h.oneSided 0 (by simp [hl, ofList]) 3 (by simp [hl, ofList])
    unfold left Line.start Line.stop at a b
    norm_num [hl, ofList] at a b
    rcases h.sign with e | e <;> rw [e] at a b <;> linarith

/-- C131, negation: a triangle in which each corner is given twice is not found to be convex. -/
theorem C131_repeated_violated : ∃ l : Line, l.closed = true ∧ (l.isConvex ⟨none, none⟩ true).1 = false ∧ l.OneSided 1 ∧ l.NotStraight := by
  set l := ofList [(0, 0), (0, 0), (1, 0), (1, 0), (0, 1), (0, 1)] with hl
  have six : ∀ i < l.n, i = 0 ∨ i = 1 ∨ i = 2 ∨ i = 3 ∨ i = 4 ∨ i = 5 := by
    intro i hi
    have : i < 6 := by simpa [hl, ofList] using hi
    omega
  refine ⟨l, rfl, ?_, ?_, ?_⟩
  · rw [(C131_again l ⟨none, none⟩ true true rfl).2.2 rfl]
    by_contra hc
    have ht : (l.isConvex ⟨none, none⟩ false).1 = true := by simpa using hc
    rw [C131_turns l _ rfl] at ht
    obtain ⟨i, hi, hne⟩ := ht.2.1
    apply hne
    unfold Line.turn Line.back cw
    rcases six i hi with rfl | rfl | rfl | rfl | rfl | rfl <;> norm_num [hl, ofList]
  · intro i hi m hm
    unfold left Line.start Line.stop
    rcases six i hi with rfl | rfl | rfl | rfl | rfl | rfl <;> rcases six m hm with rfl | rfl | rfl | rfl | rfl | rfl <;>
      norm_num [hl, ofList]
  · refine ⟨1, by simp [hl, ofList], 4, by simp [hl, ofList], ?_⟩
    unfold left Line.start Line.stop
    norm_num [hl, ofList]

/-- a triangle -/
noncomputable def triangle : Line := ofList [(0, 0), (1, 0), (0, 1)]

theorem triangle_convex : triangle.Convex 1 := by
  have three : ∀ i < triangle.n, i = 0 ∨ i = 1 ∨ i = 2 := by
    intro i hi
    have : i < 3 := by simpa [triangle, ofList] using hi
    omega
  refine ⟨rfl, by simp [triangle, ofList], Or.inl rfl, ?_, ?_, ?_⟩
  · intro i hi m hm
    unfold left Line.start Line.stop
    rcases three i hi with rfl | rfl | rfl <;> rcases three m hm with rfl | rfl | rfl <;> norm_num [triangle, ofList]
  · intro i hi
    unfold Line.start Line.stop
    rcases three i hi with rfl | rfl | rfl <;> norm_num [triangle, ofList]
  · refine ⟨0, by simp [triangle, ofList], 2, by simp [triangle, ofList], ?_⟩
    unfold left Line.start Line.stop
    norm_num [triangle, ofList]

/-- C131, negation: whether a convex polygon is clockwise depends on whether its convexity was asked for before: with axes northing and easting, the
answer is then the opposite. -/
theorem C131_history_violated (l : Line) (σ : ℝ) (axes : AxisOrder) (h : l.Convex σ) (ha : axes.rightHanded = true) :
    ∃ b m m', l.isClockwise ⟨none, none⟩ true axes = .ok (b, m) ∧
      l.isClockwise (l.isConvex ⟨none, none⟩ true).2 true axes = .ok (!b, m') := by
  have e : l.isClockwise ⟨none, none⟩ true axes = l.isClockwise ⟨none, none⟩ false axes := by
    unfold Line.isClockwise
    rfl
  have e2 : (l.isConvex ⟨none, none⟩ true).2 = ⟨some true, some (decide (σ = -1))⟩ := by
    unfold Line.isConvex
    rw [if_neg (by rw [h.closed]; simp)]
    simp only [convex_found h]
  rw [e, clockwise_found h, e2, ha]
  refine ⟨_, _, ⟨some true, some (decide (σ = -1))⟩, rfl, ?_⟩
  unfold Line.isClockwise
  rw [if_neg (by rw [h.closed]; simp)]
  simp

/-- C131, negation: a polygon which is not convex may be found to be clockwise though it goes round anticlockwise. -/
theorem C131_clockwise_violated : ∃ l : Line, l.closed = true ∧ l.mapArea .eastingNorthing = 32 ∧
    ∃ m, l.isClockwise ⟨none, none⟩ true .eastingNorthing = .ok (true, m) := by
  set l := ofList [(5, 1), (1, 1), (1, 6), (0, 6), (0, 0), (6, 0), (6, 6), (5, 6)] with hl
  refine ⟨l, rfl, ?_, ?_⟩
  · unfold Line.mapArea
    have : l.n = 8 := by simp [hl, ofList]
    rw [this]
    simp only [Finset.sum_range_succ, Finset.sum_range_zero, AxisOrder.east, AxisOrder.north, Line.start, Line.stop, this]
    norm_num [hl, ofList]
  · have hn : l.n = 8 := by simp [hl, ofList]
    have m0 : l.mean 0 = 3 := by
      have := mean_eq l (by omega) 0
      have hs : ∑ i ∈ range 8, l.c i 0 = 24 := by
        simp only [Finset.sum_range_succ, Finset.sum_range_zero]
        norm_num [hl, ofList]
      rw [hn, hs] at this
      push_cast at this
      linarith
    have m1 : l.mean 1 = 13 / 4 := by
      have := mean_eq l (by omega) 1
      have hs : ∑ i ∈ range 8, l.c i 1 = 26 := by
        simp only [Finset.sum_range_succ, Finset.sum_range_zero]
        norm_num [hl, ofList]
      rw [hn, hs] at this
      push_cast at this
      linarith
    unfold Line.isClockwise
    rw [if_neg (by simp [hl, ofList])]
    simp only
    rw [if_neg (by omega)]
    have : cw l.mean (l.c 0) (l.c 1) > 0 := by
      unfold cw
      rw [m0, m1]
      norm_num [hl, ofList]
    rw [decide_eq_true this]
    exact ⟨_, rfl⟩

/-- C131, negation: with axes northing and easting, the normal to a piece of any convex polygon points inwards. -/
theorem C131_normal_violated (l : Line) (σ : ℝ) (axes : AxisOrder) (h : l.Convex σ) (ha : axes.rightHanded = true) {i : Nat} (hi : i < l.n) :
    ∃ v m', l.segmentNormal ⟨none, none⟩ axes i = .ok (v, m') ∧
      ∀ k < l.n, 0 ≤ v 0 * (l.c k 0 - l.start i 0) + v 1 * (l.c k 1 - l.start i 1) := by
  have hp : i < l.pieces := by
    unfold Line.pieces
    rw [h.closed]
    exact hi
  obtain ⟨j, h1, h2, _⟩ := successor_of l hp
  have e : l.isClockwise ⟨none, none⟩ true axes = l.isClockwise ⟨none, none⟩ false axes := by
    unfold Line.isClockwise
    rfl
  obtain ⟨k, k0, hk, hk1⟩ := leftNormal_of l i j _ h2 (h.noRepeat i hi)
  unfold Line.segmentNormal
  rw [h1]
  simp only
  rw [e, clockwise_found h, ha]
  simp only
  have hside := fun x hx => h.oneSided i hi x hx
  rcases h.sign with e | e
  · rw [e] at hside ⊢
    rw [if_pos (by norm_num), hk]
    refine ⟨_, _, rfl, ?_⟩
    intro x hx
    have := hside x hx
    unfold left Line.start at this
    simp [Line.start]
    nlinarith
  · rw [e] at hside ⊢
    rw [if_neg (by norm_num), hk]
    refine ⟨_, _, rfl, ?_⟩
    intro x hx
    have := hside x hx
    unfold left Line.start at this
    simp [Line.start]
    nlinarith

example : AxisOrder.rightHanded .northingEasting = true ∧ triangle.Convex 1 ∧ 2 < triangle.n :=
  ⟨rfl, triangle_convex, by simp [triangle, ofList]⟩

/-- a rectangle which slopes: 3 by 2 in plan, 5 by 2 on the slope -/
noncomputable def sloping : Line :=
  { n := 4, c := fun i => if i = 0 then ![0, 0, 0] else if i = 1 then ![3, 0, 4] else if i = 2 then ![3, 2, 4] else ![0, 2, 0], closed := true }

theorem sloping_convex : sloping.Convex 1 := by
  have four : ∀ i < sloping.n, i = 0 ∨ i = 1 ∨ i = 2 ∨ i = 3 := by
    intro i hi
    have : i < 4 := hi
    omega
  refine ⟨rfl, by simp [sloping], Or.inl rfl, ?_, ?_, ?_⟩
  · intro i hi m hm
    unfold left Line.start Line.stop
    rcases four i hi with rfl | rfl | rfl | rfl <;> rcases four m hm with rfl | rfl | rfl | rfl <;> norm_num [sloping]
  · intro i hi
    unfold Line.start Line.stop
    rcases four i hi with rfl | rfl | rfl | rfl <;> norm_num [sloping]
  · refine ⟨0, by simp [sloping], 2, by simp [sloping], ?_⟩
    unfold left Line.start Line.stop
    norm_num [sloping]

theorem length_of_sq {v : V3} {x : ℝ} (hx : 0 ≤ x) (h : v 0 * v 0 + v 1 * v 1 + v 2 * v 2 = x * x) : length v = x := by
  rw [length_eq, h, Real.sqrt_mul_self hx]

/-- C131, negation: the area of a convex polygon which slopes is that on the slope, not that in plan: here 10 in place of 6. -/
theorem C131_area_violated (sampled : ℝ) : sloping.Convex 1 ∧ sloping.shoelace = 12 ∧ ∃ m, sloping.area ⟨none, none⟩ sampled = .ok (10, m) := by
  refine ⟨sloping_convex, ?_, ?_⟩
  · unfold Line.shoelace Line.start Line.stop
    have : sloping.n = 4 := rfl
    rw [this]
    simp only [Finset.sum_range_succ, Finset.sum_range_zero]
    norm_num [sloping]
  · have hconv : (sloping.isConvex ⟨none, none⟩ true).1 = true := by
      rw [(C131_again sloping ⟨none, none⟩ true true rfl).2.2 rfl]
      exact (C131_convex sloping 1 _ sloping_convex).1
    unfold Line.area
    rw [if_neg (by simp [sloping])]
    simp only
    rw [if_pos hconv]
    refine ⟨(sloping.isConvex ⟨none, none⟩ true).2, ?_⟩
    congr 2
    have hn : sloping.n = 4 := rfl
    have hm : sloping.mean = ![3 / 2, 1, 2] := by
      funext a
      have := mean_eq sloping (by rw [hn]; omega) a
      have hs : ∑ i ∈ range 4, sloping.c i a = (![6, 4, 8] : V3) a := by
        simp only [Finset.sum_range_succ, Finset.sum_range_zero]
        rcases fin3 a with rfl | rfl | rfl <;> norm_num [sloping, v2]
      rw [hn, hs] at this
      push_cast at this
      rcases fin3 a with rfl | rfl | rfl <;> simp only [v2, Matrix.cons_val_zero, Matrix.cons_val_one] at this ⊢ <;> linarith
    unfold Line.fanArea
    rw [list_sum, hn, hm]
    simp only [Finset.sum_range_succ, Finset.sum_range_zero, C113_area]
    have hb : ∀ i < 4, sloping.back i 1 = if i = 0 then ![0, 2, 0] else if i = 1 then ![0, 0, 0] else if i = 2 then ![3, 0, 4] else ![3, 2, 4] := by
      intro i hi
      have : i = 0 ∨ i = 1 ∨ i = 2 ∨ i = 3 := by omega
      unfold Line.back
      rcases this with rfl | rfl | rfl | rfl <;> norm_num [sloping]
    rw [hb 0 (by omega), hb 1 (by omega), hb 2 (by omega), hb 3 (by omega)]
    have x : ∀ p q : V3, (p = ![0, 2, 0] ∧ q = ![0, 0, 0]) ∨ (p = ![0, 0, 0] ∧ q = ![3, 0, 4]) ∨ (p = ![3, 0, 4] ∧ q = ![3, 2, 4]) ∨
        (p = ![3, 2, 4] ∧ q = ![0, 2, 0]) → length (cross3 (p - ![3 / 2, 1, 2]) (q - ![3 / 2, 1, 2])) = 5 := by
      rintro p q (⟨rfl, rfl⟩ | ⟨rfl, rfl⟩ | ⟨rfl, rfl⟩ | ⟨rfl, rfl⟩) <;>
      · apply length_of_sq (by norm_num)
        norm_num [cross3, v2]
    have c0 : sloping.c 0 = ![0, 0, 0] := rfl
    have c1 : sloping.c 1 = ![3, 0, 4] := rfl
    have c2 : sloping.c 2 = ![3, 2, 4] := rfl
    have c3 : sloping.c 3 = ![0, 2, 0] := rfl
    norm_num only [if_true, if_false]
    rw [c0, c1, c2, c3, x ![0, 2, 0] ![0, 0, 0] (by simp), x ![0, 0, 0] ![3, 0, 4] (by simp), x ![3, 0, 4] ![3, 2, 4] (by simp),
      x ![3, 2, 4] ![0, 2, 0] (by simp)]
    norm_num

end Verif.Polyline
