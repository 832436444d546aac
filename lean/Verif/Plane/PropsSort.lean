import Verif.Plane.PropsMeasure

/-!
# C114: nearest point, points sorted clockwise, points sorted along an axis
-/

namespace Verif.Plane
open Verif.Py Verif.Polygon
open Verif.Wells.Survey (V3)
open Verif.Rotate (unitVector length azimuth across)

/-! ### nearest point -/

/-- the two elements kept by a projection -/
def Keeps (projection : String) (i j : Fin 3) : Prop :=
  (projection = "xy" ∧ i = 0 ∧ j = 1) ∨ (projection = "xz" ∧ i = 0 ∧ j = 2) ∨ (projection = "yz" ∧ i = 1 ∧ j = 2)

/-- the square of the distance of two points in a projection; there is none when an element is not-a-number -/
def Apart (p q : NP) (i j : Fin 3) (d : ℝ) : Prop :=
  ∃ a b a' b' : ℝ, p i = some a ∧ p j = some b ∧ q i = some a' ∧ q j = some b' ∧ d = (a' - a) ^ 2 + (b' - b) ^ 2

theorem distanceSqr_spec {p q : NP} {projection : String} {i j : Fin 3} (h : Keeps projection i j) :
    ∃ o, distanceSqr p q projection = .ok o ∧ ∀ d, o = some d ↔ Apart p q i j d := by
  have key : ∀ i j : Fin 3,
      ∀ d, ((match (match q i, p i with | some x, some y => some ((x - y) * (x - y)) | _, _ => none : Option ℝ),
        (match q j, p j with | some x, some y => some ((x - y) * (x - y)) | _, _ => none : Option ℝ) with
        | some x, some y => some (x + y) | _, _ => none) = some d) ↔ Apart p q i j d := by
    intro i j d
    unfold Apart
    cases hi : q i <;> cases hj : q j <;> cases hi' : p i <;> cases hj' : p j <;>
      simp [sq, eq_comm]
  rcases h with ⟨rfl, rfl, rfl⟩ | ⟨rfl, rfl, rfl⟩ | ⟨rfl, rfl, rfl⟩
  · exact ⟨_, by unfold distanceSqr; simp only [if_true]; rfl, key 0 1⟩
  · exact ⟨_, by unfold distanceSqr; simp only [if_true, if_neg (by decide : ¬ "xz" = "xy")]; rfl, key 0 2⟩
  · exact ⟨_, by unfold distanceSqr; simp only [if_true, if_neg (by decide : ¬ "yz" = "xy"), if_neg (by decide : ¬ "yz" = "xz")]; rfl, key 1 2⟩

theorem distances_spec {p : NP} {projection : String} {i j : Fin 3} (h : Keeps projection i j) :
    ∀ points : List NP, ∃ l, distances p projection points = .ok l ∧ l.length = points.length ∧
      ∀ (n : Nat) (d : ℝ), l[n]? = some (some d) ↔ ∃ q, points[n]? = some q ∧ Apart p q i j d
  | [] => ⟨[], rfl, rfl, by simp⟩
  | q :: t => by
    obtain ⟨l, h1, h2, h3⟩ := distances_spec (p := p) h t
    obtain ⟨o, h4, h5⟩ := distanceSqr_spec (p := p) (q := q) h
    refine ⟨o :: l, by simp only [distances, h1, h4], by simp [h2], ?_⟩
    intro n d
    cases n with
    | zero => simp [h5]
    | succ n => simpa using h3 n d

theorem argMin_some : ∀ (l : List (Option ℝ)) (n m : Nat) (w : ℝ), ∃ k v, argMin n (some (m, w)) l = some (k, v) ∧ v ≤ w ∧
    ((k = m ∧ v = w) ∨ (v < w ∧ n ≤ k ∧ l[k - n]? = some (some v))) ∧
    ∀ e d, l[e]? = some (some d) → v ≤ d ∧ (k = m ∨ n + e < k → v < d ∨ k = m)
  | [], n, m, w => ⟨m, w, rfl, le_refl _, Or.inl ⟨rfl, rfl⟩, by simp⟩
  | none :: t, n, m, w => by
    obtain ⟨k, v, h1, h2, h3, h4⟩ := argMin_some t (n + 1) m w
    refine ⟨k, v, by simpa only [argMin] using h1, h2, ?_, ?_⟩
    · rcases h3 with h3 | ⟨h3, h5, h6⟩
      · exact Or.inl h3
      · refine Or.inr ⟨h3, by omega, ?_⟩
        rw [show k - n = (k - (n + 1)) + 1 by omega]; simpa using h6
    · intro e d he
      cases e with
      | zero => simp at he
      | succ e =>
        obtain ⟨h5, h6⟩ := h4 e d (by simpa using he)
        exact ⟨h5, fun hh => h6 (by omega)⟩
  | some x :: t, n, m, w => by
    by_cases hx : x < w
    · obtain ⟨k, v, h1, h2, h3, h4⟩ := argMin_some t (n + 1) n x
      refine ⟨k, v, by simp only [argMin, if_pos hx]; exact h1, by linarith, ?_, ?_⟩
      · rcases h3 with ⟨rfl, rfl⟩ | ⟨h3, h5, h6⟩
        · exact Or.inr ⟨hx, le_refl _, by simp⟩
        · refine Or.inr ⟨by linarith, by omega, ?_⟩
          rw [show k - n = (k - (n + 1)) + 1 by omega]; simpa using h6
      · intro e d he
        cases e with
        | zero =>
          simp at he; subst he
          refine ⟨h2, ?_⟩
          intro hh
          rcases h3 with ⟨rfl, rfl⟩ | ⟨h3, h5, h6⟩
          · rcases hh with hh | hh
            · exact Or.inr hh
            · omega
          · exact Or.inl h3
        | succ e =>
          obtain ⟨h5, h6⟩ := h4 e d (by simpa using he)
          refine ⟨h5, ?_⟩
          intro hh
          rcases hh with hh | hh
          · exact Or.inr hh
          · rcases h6 (by omega) with h7 | h7
            · exact Or.inl h7
            · omega
    · obtain ⟨k, v, h1, h2, h3, h4⟩ := argMin_some t (n + 1) m w
      refine ⟨k, v, by simp only [argMin, if_neg hx]; exact h1, h2, ?_, ?_⟩
      · rcases h3 with h3 | ⟨h3, h5, h6⟩
        · exact Or.inl h3
        · refine Or.inr ⟨h3, by omega, ?_⟩
          rw [show k - n = (k - (n + 1)) + 1 by omega]; simpa using h6
      · intro e d he
        cases e with
        | zero =>
          simp at he; subst he
          refine ⟨by linarith, ?_⟩
          intro hh
          rcases h3 with ⟨rfl, rfl⟩ | ⟨h3, h5, h6⟩
          · exact Or.inr rfl
          · exact Or.inl (by linarith)
        | succ e =>
          obtain ⟨h5, h6⟩ := h4 e d (by simpa using he)
          exact ⟨h5, fun hh => h6 (by omega)⟩

theorem argMin_none : ∀ (l : List (Option ℝ)) (n : Nat),
    (argMin n none l = none ∧ ∀ (e : Nat) (d : ℝ), l[e]? ≠ some (some d)) ∨
    (∃ k v, argMin n none l = some (k, v) ∧ n ≤ k ∧ l[k - n]? = some (some v) ∧
      ∀ (e : Nat) (d : ℝ), l[e]? = some (some d) → v ≤ d ∧ (n + e < k → v < d))
  | [], n => Or.inl ⟨rfl, by simp⟩
  | none :: t, n => by
    rcases argMin_none t (n + 1) with ⟨h1, h2⟩ | ⟨k, v, h1, h2, h3, h4⟩
    · refine Or.inl ⟨by simpa only [argMin] using h1, ?_⟩
      intro e d
      cases e with
      | zero => simp
      | succ e => simpa using h2 e d
    · refine Or.inr ⟨k, v, by simpa only [argMin] using h1, by omega, ?_, ?_⟩
      · rw [show k - n = (k - (n + 1)) + 1 by omega]; simpa using h3
      · intro e d he
        cases e with
        | zero => simp at he
        | succ e =>
          obtain ⟨h5, h6⟩ := h4 e d (by simpa using he)
          exact ⟨h5, fun hh => h6 (by omega)⟩
  | some x :: t, n => by
    obtain ⟨k, v, h1, h2, h3, h4⟩ := argMin_some t (n + 1) n x
    refine Or.inr ⟨k, v, by simpa only [argMin] using h1, ?_, ?_, ?_⟩
    · rcases h3 with ⟨rfl, rfl⟩ | ⟨h3, h5, h6⟩ <;> omega
    · rcases h3 with ⟨rfl, rfl⟩ | ⟨h3, h5, h6⟩
      · simp
      · rw [show k - n = (k - (n + 1)) + 1 by omega]; simpa using h6
    · intro e d he
      cases e with
      | zero =>
        simp at he; subst he
        refine ⟨h2, ?_⟩
        intro hh
        rcases h3 with ⟨rfl, rfl⟩ | ⟨h3, h5, h6⟩
        · omega
        · exact h3
      | succ e =>
        obtain ⟨h5, h6⟩ := h4 e d (by simpa using he)
        refine ⟨h5, ?_⟩
        intro hh
        rcases h6 (by omega) with h7 | h7
        · exact h7
        · omega

/-- The nearest point in a projection is found if some point has numbers there: no other point is nearer, and no
earlier one is as near; otherwise ValueError is raised. -/
theorem C114_nearest (p : NP) (points : List NP) (projection : String) (i j : Fin 3) (h : Keeps projection i j) :
    (∃ n q d, nearestProjected p points projection = .ok n ∧ points[n]? = some q ∧ Apart p q i j d ∧
      ∀ (m : Nat) (q' : NP) (d' : ℝ), points[m]? = some q' → Apart p q' i j d' → d ≤ d' ∧ (m < n → d < d')) ∨
    (nearestProjected p points projection = .error .value ∧ ∀ q ∈ points, ∀ d, ¬ Apart p q i j d) := by
  obtain ⟨l, h1, h2, h3⟩ := distances_spec (p := p) h points
  unfold nearestProjected
  rw [h1]
  dsimp only
  rcases argMin_none l 0 with ⟨h4, h5⟩ | ⟨k, v, h4, h5, h6, h7⟩
  · right
    rw [h4]
    refine ⟨rfl, ?_⟩
    intro q hq d hd
    obtain ⟨n, hn⟩ := List.getElem?_of_mem hq
    exact h5 n d ((h3 n d).2 ⟨q, hn, hd⟩)
  · left
    rw [h4]
    obtain ⟨q, hq, hd⟩ := (h3 k v).1 (by simpa using h6)
    refine ⟨k, q, v, rfl, hq, hd, ?_⟩
    intro m q' d' hm hd'
    obtain ⟨h8, h9⟩ := h7 m d' ((h3 m d').2 ⟨q', hm, hd'⟩)
    exact ⟨h8, fun hh => h9 (by omega)⟩

/-- Any other name of a projection is refused when there are points. -/
theorem C114_projection (p : NP) (points : List NP) (projection : String) (hp : points ≠ [])
    (h : ∀ i j, ¬ Keeps projection i j) : nearestProjected p points projection = .error .value := by
  have h1 : projection ≠ "xy" := fun hc => h 0 1 (Or.inl ⟨hc, rfl, rfl⟩)
  have h2 : projection ≠ "xz" := fun hc => h 0 2 (Or.inr (Or.inl ⟨hc, rfl, rfl⟩))
  have h3 : projection ≠ "yz" := fun hc => h 1 2 (Or.inr (Or.inr ⟨hc, rfl, rfl⟩))
  cases points with
  | nil => exact absurd rfl hp
  | cons q t =>
    have : distances p projection (q :: t) = .error .value := by
      simp only [distances, distanceSqr, if_neg h1, if_neg h2, if_neg h3]
    unfold nearestProjected
    rw [this]

/-! ### points sorted clockwise -/

/-- going from `u` to `v` about the origin is a clockwise turn of less than half a circle -/
def Clockwise (u v : V3) : Prop := u 0 * v 1 - u 1 * v 0 < 0

/-- The indices are sorted clockwise from north about the mean of all points: they are a reordering of those given,
their azimuths do not decrease, and equal azimuths are in the order of the indices. -/
theorem C114_clockwise (p : List V3) (b : List Nat) (h3 : 3 ≤ p.length) (hb : ∀ i ∈ b, i < p.length) :
    ∃ r, clockwiseSorted p b = .ok r ∧ List.Perm r b ∧
      r.Pairwise fun i i' => azimuth (p.getD i 0 - mean p) < azimuth (p.getD i' 0 - mean p) ∨
        (azimuth (p.getD i 0 - mean p) = azimuth (p.getD i' 0 - mean p) ∧ i ≤ i') := by
  classical
  unfold clockwiseSorted
  rw [if_neg (by omega), if_pos (by simpa using hb)]
  dsimp only
  refine ⟨_, rfl, ?_, ?_⟩
  · refine ((List.mergeSort_perm _ _).map _).trans ?_
    simp [Function.comp_def]
  · rw [List.pairwise_map]
    have hs := List.pairwise_mergeSort (le := fun e e' : ℝ × Nat => decide (e.1 < e'.1 ∨ (e.1 = e'.1 ∧ e.2 ≤ e'.2)))
      (by
        intro a b c h1 h2
        simp only [decide_eq_true_eq] at h1 h2 ⊢
        rcases h1 with h1 | ⟨h1, h1'⟩ <;> rcases h2 with h2 | ⟨h2, h2'⟩
        · exact Or.inl (lt_trans h1 h2)
        · exact Or.inl (h2 ▸ h1)
        · exact Or.inl (h1 ▸ h2)
        · exact Or.inr ⟨h1.trans h2, le_trans h1' h2'⟩)
      (by
        intro a b
        simp only [Bool.or_eq_true, decide_eq_true_eq]
        rcases lt_trichotomy a.1 b.1 with h | h | h
        · exact Or.inl (Or.inl h)
        · rcases le_total a.2 b.2 with h' | h'
          · exact Or.inl (Or.inr ⟨h, h'⟩)
          · exact Or.inr (Or.inr ⟨h.symm, h'⟩)
        · exact Or.inr (Or.inl h))
      (b.map fun i => (azimuth (p.getD i 0 - mean p), i))
    have hm : ∀ e ∈ (b.map fun i => (azimuth (p.getD i 0 - mean p), i)).mergeSort
        (fun e e' => decide (e.1 < e'.1 ∨ (e.1 = e'.1 ∧ e.2 ≤ e'.2))), e.1 = azimuth (p.getD e.2 0 - mean p) := by
      intro e he
      rw [List.mem_mergeSort] at he
      obtain ⟨i, _, rfl⟩ := List.mem_map.1 he
      rfl
    refine hs.imp_of_mem ?_
    intro e e' he he' hh
    simp only [decide_eq_true_eq] at hh
    rw [hm e he, hm e' he'] at hh
    exact hh

/-- Fewer than three points are refused. -/
theorem C114_too_few (p : List V3) (b : List Nat) (h : p.length < 3) : clockwiseSorted p b = .error .assertion := by
  unfold clockwiseSorted
  rw [if_pos h]

/-- If the azimuth of one vector exceeds that of another by less than half a circle, the turn to it is clockwise; if
it exceeds it by more, the turn is anticlockwise.  Together with `C114_clockwise`: going along the sorted indices is
going round clockwise. -/
theorem C114_turn (u v : V3) (hu : Rotate.Across u) (hv : Rotate.Across v) :
    (azimuth u < azimuth v ∧ azimuth v < azimuth u + 180 → Clockwise u v) ∧
    (azimuth u + 180 < azimuth v → Clockwise v u) := by
  obtain ⟨hu2, hu3⟩ := Rotate.C94_azimuth hu
  obtain ⟨hu0, hu1⟩ := Rotate.C94_azimuth_range u
  obtain ⟨hv2, hv3⟩ := Rotate.C94_azimuth hv
  obtain ⟨hv0, hv1⟩ := Rotate.C94_azimuth_range v
  have hp := mul_pos (Rotate.across_pos hu) (Rotate.across_pos hv)
  have e : u 0 * v 1 - u 1 * v 0 = - (across u * across v) * Real.sin (Wells.Survey.radians (azimuth v - azimuth u)) := by
    rw [hu2, hu3, hv2, hv3, show Wells.Survey.radians (azimuth v - azimuth u) = Wells.Survey.radians (azimuth v) - Wells.Survey.radians (azimuth u) by
      unfold Wells.Survey.radians; ring, Real.sin_sub]
    ring
  have e' : v 0 * u 1 - v 1 * u 0 = (across u * across v) * Real.sin (Wells.Survey.radians (azimuth v - azimuth u)) := by
    linear_combination (-1) * e
  have hpi := Real.pi_pos
  constructor
  · rintro ⟨h1, h2⟩
    unfold Clockwise
    rw [e]
    have : 0 < Real.sin (Wells.Survey.radians (azimuth v - azimuth u)) := by
      apply Real.sin_pos_of_pos_of_lt_pi
      · unfold Wells.Survey.radians; have : 0 < azimuth v - azimuth u := by linarith
        positivity
      · unfold Wells.Survey.radians; nlinarith
    nlinarith
  · intro h1
    unfold Clockwise
    rw [e']
    have : Real.sin (Wells.Survey.radians (azimuth v - azimuth u)) < 0 := by
      have h4 : Real.sin (Wells.Survey.radians (azimuth v - azimuth u)) = Real.sin (Wells.Survey.radians (azimuth v - azimuth u) - 2 * Real.pi) :=
        (Real.sin_sub_two_pi _).symm
      rw [h4]
      apply Real.sin_neg_of_neg_of_neg_pi_lt
      · unfold Wells.Survey.radians; nlinarith
      · unfold Wells.Survey.radians; nlinarith
    nlinarith

/-! ### points sorted along an axis -/

theorem foldl_max_spec : ∀ (l : List ℝ) (v : ℝ), l.foldl max v ∈ v :: l ∧ ∀ w ∈ v :: l, w ≤ l.foldl max v
  | [], v => by simp
  | x :: t, v => by
    obtain ⟨h1, h2⟩ := foldl_max_spec t (max v x)
    simp only [List.foldl_cons]
    refine ⟨?_, ?_⟩
    · rcases List.mem_cons.1 h1 with h | h
      · rw [h]; rcases max_choice v x with h | h <;> rw [h] <;> simp
      · exact List.mem_cons_of_mem _ (List.mem_cons_of_mem _ h)
    · have hm := h2 _ (List.mem_cons_self ..)
      intro w hw
      rcases List.mem_cons.1 hw with rfl | hw
      · exact le_trans (le_max_left _ _) hm
      · rcases List.mem_cons.1 hw with rfl | hw
        · exact le_trans (le_max_right _ _) hm
        · exact h2 w (List.mem_cons_of_mem _ hw)

theorem foldl_min_spec : ∀ (l : List ℝ) (v : ℝ), l.foldl min v ∈ v :: l ∧ ∀ w ∈ v :: l, l.foldl min v ≤ w
  | [], v => by simp
  | x :: t, v => by
    obtain ⟨h1, h2⟩ := foldl_min_spec t (min v x)
    simp only [List.foldl_cons]
    refine ⟨?_, ?_⟩
    · rcases List.mem_cons.1 h1 with h | h
      · rw [h]; rcases min_choice v x with h | h <;> rw [h] <;> simp
      · exact List.mem_cons_of_mem _ (List.mem_cons_of_mem _ h)
    · have hm := h2 _ (List.mem_cons_self ..)
      intro w hw
      rcases List.mem_cons.1 hw with rfl | hw
      · exact le_trans hm (min_le_left _ _)
      · rcases List.mem_cons.1 hw with rfl | hw
        · exact le_trans hm (min_le_right _ _)
        · exact h2 w (List.mem_cons_of_mem _ hw)

/-- the range of an element over the points -/
def IsRange (p : List V3) (a : Fin 2) (r : ℝ) : Prop :=
  (∃ lo ∈ p, ∃ hi ∈ p, r = hi a.castSucc - lo a.castSucc) ∧ ∀ q ∈ p, ∀ q' ∈ p, q' a.castSucc - q a.castSucc ≤ r

theorem range1_spec {p : List V3} (h : p ≠ []) (a : Fin 2) : IsRange p a (range1 (p.map (· a.castSucc))) := by
  cases p with
  | nil => exact absurd rfl h
  | cons x t =>
    simp only [List.map_cons, range1]
    obtain ⟨h1, h2⟩ := foldl_max_spec (t.map (· a.castSucc)) (x a.castSucc)
    obtain ⟨h3, h4⟩ := foldl_min_spec (t.map (· a.castSucc)) (x a.castSucc)
    rw [← List.map_cons (f := fun q : V3 => q a.castSucc)] at h1 h3
    obtain ⟨hi, hhi, e1⟩ := List.mem_map.1 h1
    obtain ⟨lo, hlo, e2⟩ := List.mem_map.1 h3
    refine ⟨⟨lo, hlo, hi, hhi, by rw [e1, e2]⟩, ?_⟩
    intro q hq q' hq'
    have := h2 (q' a.castSucc) (by rw [← List.map_cons (f := fun q : V3 => q a.castSucc)]; exact List.mem_map_of_mem hq')
    have := h4 (q a.castSucc) (by rw [← List.map_cons (f := fun q : V3 => q a.castSucc)]; exact List.mem_map_of_mem hq)
    linarith

/-- Points are sorted along an axis: the result is a reordering and its values do not decrease.  The axis is the one
given, or else the one of greater range (x if they are equal). -/
theorem C114_axis (p : List V3) (axis : Option (Fin 2)) (h : p ≠ []) :
    ∃ r a, xySorted p axis = .ok (r, a) ∧ List.Perm r p ∧ r.Pairwise (fun q q' => q a.castSucc ≤ q' a.castSucc) ∧
      (∀ a', axis = some a' → a = a') ∧
      (axis = none → ∃ rx ry, IsRange p 0 rx ∧ IsRange p 1 ry ∧ (a = 1 ↔ rx < ry)) := by
  classical
  have key : ∀ a : Fin 2, List.Perm (p.mergeSort fun q q' => decide (q a.castSucc ≤ q' a.castSucc)) p ∧
      (p.mergeSort fun q q' => decide (q a.castSucc ≤ q' a.castSucc)).Pairwise (fun q q' => q a.castSucc ≤ q' a.castSucc) := by
    intro a
    refine ⟨List.mergeSort_perm _ _, ?_⟩
    refine (List.pairwise_mergeSort (le := fun q q' : V3 => decide (q a.castSucc ≤ q' a.castSucc)) ?_ ?_ p).imp ?_
    · intro x y z h1 h2
      simp only [decide_eq_true_eq] at *
      exact le_trans h1 h2
    · intro x y
      simp only [Bool.or_eq_true, decide_eq_true_eq]
      exact le_total _ _
    · intro x y h1
      simpa using h1
  unfold xySorted
  rw [if_neg (fun hc => h hc.2)]
  cases axis with
  | some a =>
    refine ⟨_, _, rfl, (key a).1, (key a).2, ?_, by simp⟩
    intro a' ha
    exact Option.some.inj ha
  | none =>
    refine ⟨_, _, rfl, (key _).1, (key _).2, by simp, ?_⟩
    intro _
    refine ⟨_, _, range1_spec h 0, range1_spec h 1, ?_⟩
    dsimp only
    split_ifs with hh
    · exact ⟨fun _ => hh, fun _ => rfl⟩
    · exact ⟨fun hc => absurd hc (by decide), fun hc => absurd hc hh⟩

/-- Without points the axis of greater range cannot be chosen: ValueError. -/
theorem C114_no_points : xySorted [] none = .error .value := by
  unfold xySorted
  rw [if_pos ⟨rfl, rfl⟩]

/-- three points about a centre, none of them at it -/
example : ∀ i ∈ [0, 1, 2], Rotate.Across (([![0, 1, 0], ![1, -1, 0], ![-1, 0, 0]] : List V3).getD i 0 - ![0, 0, 0]) := by
  intro i hi
  fin_cases hi
  · right; simp
  · left; simp
  · left; simp

end Verif.Plane
