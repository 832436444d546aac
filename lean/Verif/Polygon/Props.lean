import Verif.Polygon.Lemmas
import Mathlib.Tactic.FinCases

/-! # C36: the point in polygon tests -/

namespace Verif.Polygon

variable {K : Type} [Field K] [LinearOrder K] [IsStrictOrderedRing K]

/-! ## What is counted -/

theorem getElem_edgesFrom (u : Pt K) (l : List (Pt K)) (i : Nat) (h : i < l.length) :
    (edgesFrom u l)[i]? = some (if h0 : i = 0 then u else l[i - 1], l[i]) := by
  induction l generalizing u i with
  | nil => simp at h
  | cons a l ih =>
    cases i with
    | zero => simp [edgesFrom]
    | succ i =>
      have h' : i < l.length := by simpa using h
      simp only [edgesFrom, List.getElem?_cons_succ, ih a i h', List.getElem_cons_succ, Nat.add_sub_cancel]
      cases i with
      | zero => simp
      | succ i => simp

theorem length_edgesFrom (u : Pt K) (l : List (Pt K)) : (edgesFrom u l).length = l.length := by
  induction l generalizing u with
  | nil => rfl
  | cons a l ih => simp [edgesFrom, ih]

/-- The edges are those from each vertex to the next, the one ending at the first vertex starting from the last. -/
theorem C36_edges (poly : List (Pt K)) :
    (edges poly).length = poly.length ∧
      ∀ (i : Nat) (h : i < poly.length),
        (edges poly)[i]? = some (poly[(i + poly.length - 1) % poly.length]'(Nat.mod_lt _ (by omega)), poly[i]) := by
  cases poly with
  | nil => simp [edges]
  | cons v l =>
    refine ⟨by simp [edges, length_edgesFrom], fun i h => ?_⟩
    rw [edges, getElem_edgesFrom _ _ _ h]
    congr 2
    by_cases h0 : i = 0
    · subst h0
      simp [List.getLast_eq_getElem]
    · rw [dif_neg h0]
      congr 1
      rw [show i + (v :: l).length - 1 = (i - 1) + (v :: l).length by omega, Nat.add_mod_right,
        Nat.mod_eq_of_lt (by omega)]

theorem straddles_iff (y : K) (e : Pt K × Pt K) :
    Straddles y e ↔ (e.1.y ≤ y ∧ y < e.2.y) ∨ (y < e.1.y ∧ e.2.y ≤ y) := by
  unfold Straddles
  rcases le_or_gt e.1.y y with h1 | h1 <;> rcases le_or_gt e.2.y y with h2 | h2 <;>
    simp [h1, h2, not_lt.2, not_le.2]

theorem meetsRay_iff (p : Pt K) (e : Pt K × Pt K) : MeetsRay p e ↔ Up p e ∨ Dn p e := by
  have hx : ∀ t : K, e.1.y + t * (e.2.y - e.1.y) = p.y → e.2.y - e.1.y ≠ 0 →
      xAt p.y e.1 e.2 = e.1.x + t * (e.2.x - e.1.x) := by
    intro t ht hne
    rw [xAt_eq]
    have : t = (p.y - e.1.y) / (e.2.y - e.1.y) := by
      rw [eq_div_iff hne]; linarith
    rw [this]
  unfold MeetsRay
  rw [straddles_iff]
  constructor
  · rintro ⟨h, t, _, _, ht, hlt⟩
    rcases h with ⟨h1, h2⟩ | ⟨h1, h2⟩
    · left
      refine ⟨h1, h2, ?_⟩
      rw [← lt_xAt_up p e.1 e.2 h1 h2, hx t ht (by intro h; linarith)]
      exact hlt
    · right
      refine ⟨h1, h2, ?_⟩
      rw [← lt_xAt_dn p e.1 e.2 h1 h2, hx t ht (by intro h; linarith)]
      exact hlt
  · rintro (⟨h1, h2, h3⟩ | ⟨h1, h2, h3⟩)
    · have hne : e.2.y - e.1.y ≠ 0 := by intro h; linarith
      have hpos : 0 < e.2.y - e.1.y := by linarith
      have ht : e.1.y + (p.y - e.1.y) / (e.2.y - e.1.y) * (e.2.y - e.1.y) = p.y := by
        rw [div_mul_cancel₀ _ hne]; ring
      refine ⟨Or.inl ⟨h1, h2⟩, (p.y - e.1.y) / (e.2.y - e.1.y), div_nonneg (by linarith) hpos.le, ?_, ht, ?_⟩
      · rw [div_le_one hpos]; linarith
      · rw [← hx _ ht hne, lt_xAt_up p e.1 e.2 h1 h2]; exact h3
    · have hne : e.2.y - e.1.y ≠ 0 := by intro h; linarith
      have hpos : e.2.y - e.1.y < 0 := by linarith
      have ht : e.1.y + (p.y - e.1.y) / (e.2.y - e.1.y) * (e.2.y - e.1.y) = p.y := by
        rw [div_mul_cancel₀ _ hne]; ring
      refine ⟨Or.inr ⟨h1, h2⟩, (p.y - e.1.y) / (e.2.y - e.1.y), div_nonneg_of_nonpos (by linarith) hpos.le, ?_, ht, ?_⟩
      · rw [div_le_one_of_neg hpos]; linarith
      · rw [← hx _ ht hne, lt_xAt_dn p e.1 e.2 h1 h2]; exact h3

open Classical in
/-- The crossing number test is true exactly when an odd number of edges meet the ray going from the point in the
direction of increasing x. -/
theorem C36_crossing_number (p : Pt K) (poly : List (Pt K)) :
    pipCn p poly = true ↔ (edges poly).countP (fun e => decide (MeetsRay p e)) % 2 = 1 := by
  rw [pipCn_eq]
  have : cnSum p (edges poly) = (edges poly).countP (fun e => decide (MeetsRay p e)) := by
    induction edges poly with
    | nil => rfl
    | cons e l ih =>
      rw [cnSum_cons, List.countP_cons, ih, cnInc]
      simp only [meetsRay_iff, decide_eq_true_eq]
      by_cases hu : Up p e
      · simp [hu, up_not_dn hu]; omega
      · by_cases hd : Dn p e
        · simp [hu, hd]; omega
        · simp [hu, hd]
  rw [this, beq_iff_eq]

/-! ## The start and the direction of the polygon -/

/-- Neither test depends on which vertex the polygon starts with. -/
theorem C36_any_start (p : Pt K) (poly : List (Pt K)) (n : Nat) :
    pipCn p (poly.rotate n) = pipCn p poly ∧ pipWn p (poly.rotate n) = pipWn p poly := by
  refine ⟨?_, ?_⟩
  · rw [pipCn_eq, pipCn_eq, cnSum_perm (edges_rotate poly n)]
  · rw [pipWn, pipWn, winding_eq, winding_eq, wnSum_perm (edges_rotate poly n)]

/-- Neither test depends on the direction of the polygon; the winding count changes sign. -/
theorem C36_either_direction (p : Pt K) (poly : List (Pt K)) :
    pipCn p poly.reverse = pipCn p poly ∧ pipWn p poly.reverse = pipWn p poly ∧
      winding p poly.reverse = - winding p poly := by
  have hw : winding p poly.reverse = - winding p poly := by
    rw [winding_eq, winding_eq, wnSum_perm (edges_reverse poly), wnSum_swap]
  refine ⟨?_, ?_, hw⟩
  · rw [pipCn_eq, pipCn_eq, cnSum_perm (edges_reverse poly), cnSum_swap]
  · rw [pipWn, pipWn, hw]
    rw [Bool.eq_iff_iff]
    simp only [bne_iff_ne, ne_eq, neg_eq_zero]

/-! ## The array version and the winding version -/

theorem foldl_zipWith (ps : List (Pt K)) (l : List (Pt K × Pt K)) (c : List Nat) (h : c.length = ps.length) :
    l.foldl (fun c e => List.zipWith (fun a p => a + arrayTerm p e) c ps) c =
      List.zipWith (fun a p => l.foldl (cnStep p) a) c ps := by
  induction l generalizing c with
  | nil =>
    apply List.ext_getElem <;> simp [h]
  | cons e l ih =>
    rw [List.foldl_cons, ih _ (by simp [h])]
    apply List.ext_getElem
    · simp [h]
    · intro i h1 h2
      simp only [List.getElem_zipWith, List.foldl_cons, arrayTerm_step]

/-- The array version gives for each point what the single point version gives. -/
theorem C36_array_agrees (ps poly : List (Pt K)) : pipArrayCn ps poly = ps.map fun p => pipCn p poly := by
  unfold pipArrayCn
  split
  · rename_i h
    rw [List.length_eq_zero_iff.1 h]; rfl
  · dsimp only
    rw [foldl_zipWith ps _ _ (by simp)]
    apply List.ext_getElem <;> simp [pipCn]

/-- The winding count and the crossing count have the same parity, so a point inside by crossing number is inside by
winding number. -/
theorem C36_winding_parity (p : Pt K) (poly : List (Pt K)) :
    (pipCn p poly = true ↔ winding p poly % 2 = 1) ∧ (pipCn p poly = true → pipWn p poly = true) := by
  have h : pipCn p poly = true ↔ winding p poly % 2 = 1 := by
    rw [pipCn_eq, winding_eq, beq_iff_eq, parity]
    omega
  refine ⟨h, fun hc => ?_⟩
  have := h.1 hc
  simp only [pipWn, bne_iff_ne]
  intro h0
  rw [h0] at this
  simp at this

/-! ## Repeated vertices -/

/-- Repeating a vertex anywhere changes neither test; so does closing the polygon by repeating its first vertex
at the end. -/
theorem C36_repeated_vertex (p v : Pt K) (l m : List (Pt K)) :
    (pipCn p (l ++ v :: v :: m) = pipCn p (l ++ v :: m) ∧ winding p (l ++ v :: v :: m) = winding p (l ++ v :: m)) ∧
      (pipCn p (v :: l ++ [v]) = pipCn p (v :: l) ∧ winding p (v :: l ++ [v]) = winding p (v :: l)) := by
  have hrot : ∀ q : List (Pt K), (edges (l ++ q)).Perm (edges (q ++ l)) := by
    intro q
    have := edges_rotate (l ++ q) l.length
    rw [List.rotate_append_length_eq] at this
    exact this.symm
  have h1 : ∀ q : List (Pt K), cnSum p (edges (v :: v :: q)) = cnSum p (edges (v :: q)) ∧
      wnSum p (edges (v :: v :: q)) = wnSum p (edges (v :: q)) := by
    intro q
    rw [cnSum_perm (edges_cons v (v :: q)), cnSum_perm (edges_cons v q), wnSum_perm (edges_cons v (v :: q)),
      wnSum_perm (edges_cons v q)]
    simp [edgesFrom, cnInc_self, wnInc_self]
  refine ⟨⟨?_, ?_⟩, ?_, ?_⟩
  · rw [pipCn_eq, pipCn_eq, cnSum_perm (hrot _), cnSum_perm (hrot _), List.cons_append, List.cons_append,
      (h1 _).1]
  · rw [winding_eq, winding_eq, wnSum_perm (hrot _), wnSum_perm (hrot _), List.cons_append, List.cons_append,
      (h1 _).2]
  · rw [pipCn_eq, pipCn_eq, cnSum_perm (edges_rotate1 v (v :: l)), (h1 _).1]
  · rw [winding_eq, winding_eq, wnSum_perm (edges_rotate1 v (v :: l)), (h1 _).2]

/-! ## Cutting a polygon in two -/

theorem edges_cut (a b : Pt K) (l m : List (Pt K)) :
    (edges (a :: l ++ b :: m)).Perm (edgesFrom a (l ++ [b]) ++ edgesFrom b (m ++ [a])) := by
  refine (edges_cons a (l ++ b :: m)).trans ?_
  rw [List.append_assoc, List.cons_append, edgesFrom_append]

theorem edges_part (a b : Pt K) (l : List (Pt K)) :
    (edges (a :: l ++ [b])).Perm (edgesFrom a (l ++ [b]) ++ [(b, a)]) := by
  have := edges_cut a b l []
  simpa [edgesFrom] using this

theorem xor_parity (a b : Nat) : ((a % 2 == 1) ^^ (b % 2 == 1)) = ((a + b) % 2 == 1) := by
  rcases Nat.mod_two_eq_zero_or_one a with h | h <;> rcases Nat.mod_two_eq_zero_or_one b with h' | h' <;>
    simp [h, h', Nat.add_mod]

/-- When a polygon is cut along a line between two of its vertices, a point is inside the whole (by crossing number)
exactly when it is inside one and only one of the two parts; winding counts add up. -/
theorem C36_cut (p a b : Pt K) (l m : List (Pt K)) :
    pipCn p (a :: l ++ b :: m) = (pipCn p (a :: l ++ [b]) ^^ pipCn p (b :: m ++ [a])) ∧
      winding p (a :: l ++ b :: m) = winding p (a :: l ++ [b]) + winding p (b :: m ++ [a]) := by
  have hs : cnInc p (b, a) = cnInc p (a, b) := cnInc_swap p (a, b)
  have hw : wnInc p (b, a) = - wnInc p (a, b) := wnInc_swap p (a, b)
  refine ⟨?_, ?_⟩
  · rw [pipCn_eq, pipCn_eq, pipCn_eq, cnSum_perm (edges_cut a b l m), cnSum_perm (edges_part a b l),
      cnSum_perm (edges_part b a m), xor_parity]
    simp only [cnSum_append, cnSum_cons, cnSum_nil, hs]
    congr 1
    omega
  · rw [winding_eq, winding_eq, winding_eq, wnSum_perm (edges_cut a b l m), wnSum_perm (edges_part a b l),
      wnSum_perm (edges_part b a m)]
    simp only [wnSum_append, wnSum_cons, wnSum_nil, hw]
    omega

/-- A polygon is the sum of the triangles made by its first vertex and each of its edges: a point is inside by
crossing number exactly when it is inside an odd number of them, and the winding count is the sum of theirs. -/
theorem C36_fan (p v : Pt K) (l : List (Pt K)) :
    (pipCn p (v :: l) = true ↔ ((fan v l).countP fun t => pipCn p t) % 2 = 1) ∧
      winding p (v :: l) = ((fan v l).map fun t => winding p t).sum := by
  induction l with
  | nil =>
    simp [fan, pipCn_eq, winding_eq, edges, edgesFrom, cnInc_self, wnInc_self]
  | cons a l ih =>
    cases l with
    | nil =>
      have hs : cnInc p (a, v) = cnInc p (v, a) := cnInc_swap p (v, a)
      have hw : wnInc p (a, v) = - wnInc p (v, a) := wnInc_swap p (v, a)
      simp [fan, pipCn_eq, winding_eq, edges, edgesFrom, hs, hw]
      omega
    | cons b l =>
      -- the polygon is cut along the line from `v` to `b`
      have hc := C36_cut p v b [a] l
      have hr : pipCn p (b :: l ++ [v]) = pipCn p (v :: b :: l) ∧ winding p (b :: l ++ [v]) = winding p (v :: b :: l) := by
        rw [pipCn_eq, pipCn_eq, winding_eq, winding_eq, cnSum_perm (edges_rotate1 v (b :: l)),
          wnSum_perm (edges_rotate1 v (b :: l))]
        exact ⟨rfl, rfl⟩
      rw [hr.1, hr.2] at hc
      simp only [List.cons_append, List.nil_append] at hc
      refine ⟨?_, ?_⟩
      · rw [hc.1, fan, List.countP_cons]
        have := ih.1
        by_cases h1 : pipCn p [v, a, b] = true
        · rw [if_pos h1, h1]
          by_cases h2 : pipCn p (v :: b :: l) = true
          · have := this.1 h2
            simp only [h2, Bool.xor_true, Bool.not_true]
            constructor
            · intro h; cases h
            · intro h; omega
          · have h3 : ¬ (fan v (b :: l)).countP (fun t => pipCn p t) % 2 = 1 := fun h => h2 (this.2 h)
            rw [Bool.not_eq_true] at h2
            simp only [h2, Bool.true_xor, Bool.not_false, true_iff]
            omega
        · rw [if_neg h1]
          rw [Bool.not_eq_true] at h1
          rw [h1, Bool.false_xor, this, Nat.add_zero]
      · rw [hc.2, ih.2, fan, List.map_cons, List.sum_cons]

/-! ## Triangles -/

theorem tri_cn (p a b c : Pt K) : pipCn p [a, b, c] = ((cnInc p (c, a) + (cnInc p (a, b) + cnInc p (b, c))) % 2 == 1) := by
  simp [pipCn_eq, edges, edgesFrom]

theorem orient_sum (a b c p : Pt K) : orient a b p + orient b c p + orient c a p = orient a b c := by
  simp only [orient]; ring

theorem orient_y (a b c p : Pt K) :
    orient b c p * (a.y - p.y) + orient c a p * (b.y - p.y) + orient a b p * (c.y - p.y) = 0 := by
  simp only [orient]; ring

theorem orient_x (a b c p : Pt K) :
    orient b c p * (a.x - p.x) + orient c a p * (b.x - p.x) + orient a b p * (c.x - p.x) = 0 := by
  simp only [orient]; ring

theorem within_of_nonneg (a b c p : Pt K) (hT : 0 < orient a b c) (h1 : 0 ≤ orient a b p) (h2 : 0 ≤ orient b c p)
    (h3 : 0 ≤ orient c a p) : WithinClosed a b c p := by
  have hne : orient a b c ≠ 0 := hT.ne'
  refine ⟨orient b c p / orient a b c, orient c a p / orient a b c, orient a b p / orient a b c,
    div_nonneg h2 hT.le, div_nonneg h3 hT.le, div_nonneg h1 hT.le, ?_, ?_, ?_⟩
  · rw [← add_div, ← add_div, div_eq_one_iff_eq hne, ← orient_sum a b c p]; ring
  · have h := orient_x a b c p
    have hs := orient_sum a b c p
    field_simp
    rw [← hs]
    linear_combination -h
  · have h := orient_y a b c p
    have hs := orient_sum a b c p
    field_simp
    rw [← hs]
    linear_combination -h

theorem cnInc_level (p u v : Pt K) (h : p.y < u.y ↔ p.y < v.y) : cnInc p (u, v) = 0 := by
  have hu : ¬ Up p (u, v) := fun h' => absurd (h.2 h'.2.1) (not_lt.2 h'.1)
  have hd : ¬ Dn p (u, v) := fun h' => absurd (h.1 h'.1) (not_lt.2 h'.2.1)
  simp [cnInc, hu, hd]

theorem cnInc_up (p u v : Pt K) (h1 : u.y ≤ p.y) (h2 : p.y < v.y) :
    cnInc p (u, v) = if 0 < orient u v p then 1 else 0 := by
  have hd : ¬ Dn p (u, v) := fun h => absurd h.1 (not_lt.2 h1)
  have hu : Up p (u, v) ↔ 0 < orient u v p := ⟨fun h => h.2.2, fun h => ⟨h1, h2, h⟩⟩
  simp [cnInc, hd, hu]

theorem cnInc_dn (p u v : Pt K) (h1 : p.y < u.y) (h2 : v.y ≤ p.y) :
    cnInc p (u, v) = if orient u v p < 0 then 1 else 0 := by
  have hd : ¬ Up p (u, v) := fun h => absurd h.1 (not_le.2 h1)
  have hu : Dn p (u, v) ↔ orient u v p < 0 := ⟨fun h => h.2.2, fun h => ⟨h1, h2, h⟩⟩
  simp [cnInc, hd, hu]

/-- one vertex above the level of the point -/
theorem tri_one (p a b c : Pt K) (hT : 0 ≤ orient a b c) (ha : p.y < a.y) (hb : b.y ≤ p.y) (hc : c.y ≤ p.y) :
    (pipCn p [a, b, c] = true → 0 ≤ orient a b p ∧ 0 ≤ orient b c p ∧ 0 ≤ orient c a p) ∧
      (0 < orient a b p → 0 < orient b c p → 0 < orient c a p → pipCn p [a, b, c] = true) := by
  have hs := orient_sum a b c p
  have hy := orient_y a b c p
  have ha' : 0 < a.y - p.y := by linarith
  rw [tri_cn, cnInc_up p c a hc ha, cnInc_dn p a b ha hb,
    cnInc_level p b c (by simp [not_lt.2 hb, not_lt.2 hc])]
  constructor
  · intro h
    by_cases h1 : 0 < orient c a p
    · by_cases h2 : orient a b p < 0
      · simp [h1, h2] at h
      · have h2' := not_lt.1 h2
        refine ⟨h2', ?_, h1.le⟩
        by_contra h3
        rw [not_le] at h3
        nlinarith [mul_pos_of_neg_of_neg h3 (neg_lt_zero.2 ha'), mul_nonneg h1.le (sub_nonneg.2 hb),
          mul_nonneg h2' (sub_nonneg.2 hc)]
    · by_cases h2 : orient a b p < 0
      · exfalso
        have h1' := not_lt.1 h1
        have h3 : 0 < orient b c p := by linarith
        nlinarith [mul_pos h3 ha', mul_nonneg (neg_nonneg.2 h1') (sub_nonneg.2 hb),
          mul_nonneg (neg_nonneg.2 h2.le) (sub_nonneg.2 hc)]
      · simp [h1, h2] at h
  · intro h1 h2 h3
    simp [h3, not_lt.2 h1.le]

/-- two vertices above the level of the point -/
theorem tri_two (p a b c : Pt K) (hT : 0 ≤ orient a b c) (ha : a.y ≤ p.y) (hb : p.y < b.y) (hc : p.y < c.y) :
    (pipCn p [a, b, c] = true → 0 ≤ orient a b p ∧ 0 ≤ orient b c p ∧ 0 ≤ orient c a p) ∧
      (0 < orient a b p → 0 < orient b c p → 0 < orient c a p → pipCn p [a, b, c] = true) := by
  have hs := orient_sum a b c p
  have hy := orient_y a b c p
  have hb' : 0 < b.y - p.y := by linarith
  have hc' : 0 < c.y - p.y := by linarith
  rw [tri_cn, cnInc_dn p c a hc ha, cnInc_up p a b ha hb, cnInc_level p b c (by simp [hb, hc])]
  constructor
  · intro h
    by_cases h1 : orient c a p < 0
    · by_cases h2 : 0 < orient a b p
      · simp [h1, h2] at h
      · exfalso
        have h2' := not_lt.1 h2
        have h3 : 0 < orient b c p := by linarith
        nlinarith [mul_nonneg h3.le (sub_nonneg.2 ha), mul_pos (neg_pos.2 h1) hb',
          mul_nonneg (neg_nonneg.2 h2') hc'.le]
    · by_cases h2 : 0 < orient a b p
      · have h1' := not_lt.1 h1
        refine ⟨h2.le, ?_, h1'⟩
        by_contra h3
        rw [not_le] at h3
        nlinarith [mul_nonneg (neg_nonneg.2 h3.le) (sub_nonneg.2 ha), mul_pos h2 hc', mul_nonneg h1' hb'.le]
      · simp [h1, h2] at h
  · intro h1 h2 h3
    simp [h1, not_lt.2 h3.le]

theorem tri_rot (p a b c : Pt K) : pipCn p [b, c, a] = pipCn p [a, b, c] := by
  have := (C36_any_start p [a, b, c] 1).1
  simpa using this

theorem orient_rot (a b c : Pt K) : orient b c a = orient a b c := by simp only [orient]; ring

theorem tri_nonneg (p a b c : Pt K) (hT : 0 ≤ orient a b c) :
    (pipCn p [a, b, c] = true → 0 ≤ orient a b p ∧ 0 ≤ orient b c p ∧ 0 ≤ orient c a p) ∧
      (0 < orient a b p → 0 < orient b c p → 0 < orient c a p → pipCn p [a, b, c] = true) := by
  have hT2 : 0 ≤ orient b c a := by rw [orient_rot]; exact hT
  have hT3 : 0 ≤ orient c a b := by rw [orient_rot]; exact hT2
  have hr1 := tri_rot p a b c
  have hr2 := tri_rot p b c a
  have hy := orient_y a b c p
  rcases le_or_gt a.y p.y with ha | ha <;> rcases le_or_gt b.y p.y with hb | hb <;>
    rcases le_or_gt c.y p.y with hc | hc
  · -- none above
    have hf : pipCn p [a, b, c] = false := by
      rw [tri_cn, cnInc_level p c a (by simp [not_lt.2 ha, not_lt.2 hc]),
        cnInc_level p a b (by simp [not_lt.2 ha, not_lt.2 hb]), cnInc_level p b c (by simp [not_lt.2 hb, not_lt.2 hc])]
      rfl
    rw [hf]
    refine ⟨by simp, fun h1 h2 h3 => ?_⟩
    exfalso
    have e1 := mul_nonneg h2.le (sub_nonneg.2 ha)
    have e2 := mul_nonneg h3.le (sub_nonneg.2 hb)
    have e3 := mul_nonneg h1.le (sub_nonneg.2 hc)
    have z1 : orient b c p * (p.y - a.y) = 0 := by nlinarith
    have z2 : orient c a p * (p.y - b.y) = 0 := by nlinarith
    rcases mul_eq_zero.1 z1 with z | z
    · linarith
    · rcases mul_eq_zero.1 z2 with z' | z'
      · linarith
      · have : orient a b p = 0 := by
          unfold orient
          have q1 : a.y = p.y := by linarith
          have q2 : b.y = p.y := by linarith
          rw [q1, q2]; ring
        linarith
  · have := tri_one p c a b hT3 hc ha hb
    rw [hr2, hr1] at this
    tauto
  · have := tri_one p b c a hT2 hb hc ha
    rw [hr1] at this
    tauto
  · exact tri_two p a b c hT ha hb hc
  · exact tri_one p a b c hT ha hb hc
  · have := tri_two p b c a hT2 hb hc ha
    rw [hr1] at this
    tauto
  · have := tri_two p c a b hT3 hc ha hb
    rw [hr2, hr1] at this
    tauto
  · -- all above
    have hf : pipCn p [a, b, c] = false := by
      rw [tri_cn, cnInc_level p c a (by simp [ha, hc]),
        cnInc_level p a b (by simp [ha, hb]), cnInc_level p b c (by simp [hb, hc])]
      rfl
    rw [hf]
    refine ⟨by simp, fun h1 h2 h3 => ?_⟩
    exfalso
    have e1 := mul_pos h2 (sub_pos.2 ha)
    have e2 := mul_pos h3 (sub_pos.2 hb)
    have e3 := mul_pos h1 (sub_pos.2 hc)
    nlinarith

theorem tri_reverse (p a b c : Pt K) : pipCn p [c, b, a] = pipCn p [a, b, c] := by
  have := (C36_either_direction p [a, b, c]).1
  simpa using this

theorem within_swap {a b c p : Pt K} (h : WithinClosed c b a p) : WithinClosed a b c p := by
  obtain ⟨u, v, w, h1, h2, h3, h4, h5, h6⟩ := h
  exact ⟨w, v, u, h3, h2, h1, by rw [← h4]; ring, by rw [h5]; ring, by rw [h6]; ring⟩

/-- For a triangle, a point strictly within it is inside; and a point found to be inside is within it or on its
boundary.  A triangle without area contains no point. -/
theorem C36_triangle (p a b c : Pt K) :
    (StrictlyInside a b c p → pipCn p [a, b, c] = true ∧ pipWn p [a, b, c] = true) ∧
      (pipCn p [a, b, c] = true → WithinClosed a b c p) ∧
      (orient a b c = 0 → pipCn p [a, b, c] = false) := by
  have hdeg : orient a b c = 0 → pipCn p [a, b, c] = false := by
    intro hT
    by_contra hne
    rw [Bool.not_eq_false] at hne
    obtain ⟨h1, h2, h3⟩ := (tri_nonneg p a b c hT.ge).1 hne
    have hs := orient_sum a b c p
    have z1 : orient a b p = 0 := by linarith
    have z2 : orient b c p = 0 := by linarith
    have z3 : orient c a p = 0 := by linarith
    rw [tri_cn] at hne
    simp [cnInc, Up, Dn, z1, z2, z3] at hne
  refine ⟨fun h => ?_, fun h => ?_, hdeg⟩
  · have hc : pipCn p [a, b, c] = true := by
      rcases h with ⟨h1, h2, h3⟩ | ⟨h1, h2, h3⟩
      · have hs := orient_sum a b c p
        exact (tri_nonneg p a b c (by linarith)).2 h1 h2 h3
      · have hs := orient_sum c b a p
        rw [orient_swap b c, orient_swap a b, orient_swap c a] at hs
        rw [← tri_reverse]
        refine (tri_nonneg p c b a (by linarith)).2 ?_ ?_ ?_
        · rw [orient_swap b c]; linarith
        · rw [orient_swap a b]; linarith
        · rw [orient_swap c a]; linarith
    exact ⟨hc, (C36_winding_parity p _).2 hc⟩
  · rcases lt_trichotomy (orient a b c) 0 with hT | hT | hT
    · have hT' : orient c b a = - orient a b c := by simp only [orient]; ring
      rw [← tri_reverse] at h
      obtain ⟨h1, h2, h3⟩ := (tri_nonneg p c b a (by linarith)).1 h
      exact within_swap (within_of_nonneg c b a p (by linarith) h1 h2 h3)
    · rw [hdeg hT] at h; cases h
    · obtain ⟨h1, h2, h3⟩ := (tri_nonneg p a b c hT.le).1 h
      exact within_of_nonneg a b c p hT h1 h2 h3

/-! ## Points outside the bounding box -/

/-- 1 when the vertex is above the level of the point -/
def above (p v : Pt K) : Int := if p.y < v.y then 1 else 0

theorem wnInc_right (p u v : Pt K) (hu : p.x < u.x) (hv : p.x < v.x) : wnInc p (u, v) = above p v - above p u := by
  unfold wnInc above
  rcases le_or_gt u.y p.y with h1 | h1 <;> rcases le_or_gt v.y p.y with h2 | h2
  · have a1 : ¬ Up p (u, v) := fun h => absurd h.2.1 (not_lt.2 h2)
    have a2 : ¬ Dn p (u, v) := fun h => absurd h.1 (not_lt.2 h1)
    simp [a1, a2, not_lt.2 h1, not_lt.2 h2]
  · have a1 : Up p (u, v) := ⟨h1, h2, up_imp p u v h1 h2 hu hv⟩
    simp [a1, up_not_dn a1, not_lt.2 h1, h2]
  · have a1 : Dn p (u, v) := ⟨h1, h2, dn_imp p u v h1 h2 hu hv⟩
    have a2 : ¬ Up p (u, v) := fun h => up_not_dn h a1
    simp [a1, a2, h1, not_lt.2 h2]
  · have a1 : ¬ Up p (u, v) := fun h => absurd h.1 (not_le.2 h1)
    have a2 : ¬ Dn p (u, v) := fun h => absurd h.2.1 (not_le.2 h2)
    simp [a1, a2, h1, h2]

theorem wnSum_right (p u w : Pt K) (l : List (Pt K)) (hu : p.x < u.x) (hw : p.x < w.x)
    (h : ∀ v ∈ l, p.x < v.x) : wnSum p (edgesFrom u (l ++ [w])) = above p w - above p u := by
  induction l generalizing u with
  | nil => simp [edgesFrom, wnInc_right p u w hu hw]
  | cons a l ih =>
    have ha := h a (List.mem_cons_self ..)
    simp only [List.cons_append, edgesFrom, wnSum_cons, wnInc_right p u a hu ha]
    rw [ih a ha (fun v hv => h v (List.mem_cons_of_mem _ hv))]
    omega

theorem mem_edgesFrom {u : Pt K} {l : List (Pt K)} {e : Pt K × Pt K} (h : e ∈ edgesFrom u l) :
    (e.1 = u ∨ e.1 ∈ l) ∧ e.2 ∈ l := by
  induction l generalizing u with
  | nil => simp [edgesFrom] at h
  | cons a l ih =>
    rw [edgesFrom, List.mem_cons] at h
    rcases h with h | h
    · subst h; simp
    · have := ih h
      simp only [List.mem_cons]
      tauto

theorem mem_edges {l : List (Pt K)} {e : Pt K × Pt K} (h : e ∈ edges l) : e.1 ∈ l ∧ e.2 ∈ l := by
  cases l with
  | nil => simp [edges] at h
  | cons v l =>
    have := mem_edgesFrom h
    refine ⟨?_, this.2⟩
    rcases this.1 with h1 | h1
    · rw [h1]; exact List.getLast_mem _
    · exact h1

theorem wnSum_zero (p : Pt K) (l : List (Pt K × Pt K)) (h : ∀ e ∈ l, wnInc p e = 0) : wnSum p l = 0 := by
  induction l with
  | nil => rfl
  | cons e l ih =>
    rw [wnSum_cons, h e (List.mem_cons_self ..), ih (fun e he => h e (List.mem_cons_of_mem _ he))]
    rfl

/-- A point to the left or right of all the vertices of a polygon, or not below any of them, or below all of
them, is not inside by either test. -/
theorem C36_outside_box (p : Pt K) (poly : List (Pt K))
    (h : (∀ v ∈ poly, v.x ≤ p.x) ∨ (∀ v ∈ poly, p.x < v.x) ∨ (∀ v ∈ poly, v.y ≤ p.y) ∨ (∀ v ∈ poly, p.y < v.y)) :
    pipCn p poly = false ∧ pipWn p poly = false := by
  suffices hw : winding p poly = 0 by
    refine ⟨?_, by simp [pipWn, hw]⟩
    by_contra hc
    rw [Bool.not_eq_false] at hc
    have := (C36_winding_parity p poly).1.1 hc
    rw [hw] at this
    simp at this
  rw [winding_eq]
  rcases h with h | h | h | h
  · apply wnSum_zero
    intro e he
    have h1 := h _ (mem_edges he).1
    have h2 := h _ (mem_edges he).2
    have a1 : ¬ Up p e := fun hu => up_not p e.1 e.2 hu.1 hu.2.1 h1 h2 hu.2.2
    have a2 : ¬ Dn p e := fun hu => dn_not p e.1 e.2 hu.1 hu.2.1 h1 h2 hu.2.2
    simp [wnInc, a1, a2]
  · cases poly with
    | nil => rfl
    | cons v l =>
      have hv := h v (List.mem_cons_self ..)
      rw [wnSum_perm (edges_cons v l), wnSum_right p v v l hv hv (fun w hw => h w (List.mem_cons_of_mem _ hw))]
      omega
  · apply wnSum_zero
    intro e he
    have h1 := h _ (mem_edges he).1
    have h2 := h _ (mem_edges he).2
    have a1 : ¬ Up p e := fun hu => absurd hu.2.1 (not_lt.2 h2)
    have a2 : ¬ Dn p e := fun hu => absurd hu.1 (not_lt.2 h1)
    simp [wnInc, a1, a2]
  · apply wnSum_zero
    intro e he
    have h1 := h _ (mem_edges he).1
    have h2 := h _ (mem_edges he).2
    have a1 : ¬ Up p e := fun hu => absurd hu.1 (not_le.2 h1)
    have a2 : ¬ Dn p e := fun hu => absurd hu.2.1 (not_le.2 h2)
    simp [wnInc, a1, a2]

/-! ## Moving and stretching -/

/-- a point after stretching both axes and moving -/
def moved (sx sy tx ty : K) (p : Pt K) : Pt K := ⟨sx * p.x + tx, sy * p.y + ty⟩

theorem edgesFrom_map (f : Pt K → Pt K) (u : Pt K) (l : List (Pt K)) :
    edgesFrom (f u) (l.map f) = (edgesFrom u l).map (Prod.map f f) := by
  induction l generalizing u with
  | nil => rfl
  | cons a l ih => simp [edgesFrom, ih]

theorem edges_map (f : Pt K → Pt K) (l : List (Pt K)) : edges (l.map f) = (edges l).map (Prod.map f f) := by
  cases l with
  | nil => rfl
  | cons v l =>
    have hl : (f v :: l.map f).getLast (List.cons_ne_nil _ _) = f ((v :: l).getLast (List.cons_ne_nil v l)) :=
      List.getLast_map (l := v :: l) (List.cons_ne_nil _ _)
    have := edgesFrom_map f ((v :: l).getLast (List.cons_ne_nil v l)) (v :: l)
    rw [← hl] at this
    exact this

/-- Moving the point and the polygon together, or changing the units of either axis, changes neither test. -/
theorem C36_units (sx sy tx ty : K) (hx : 0 < sx) (hy : 0 < sy) (p : Pt K) (poly : List (Pt K)) :
    pipCn (moved sx sy tx ty p) (poly.map (moved sx sy tx ty)) = pipCn p poly ∧
      winding (moved sx sy tx ty p) (poly.map (moved sx sy tx ty)) = winding p poly := by
  have ho : ∀ a b c : Pt K, orient (moved sx sy tx ty a) (moved sx sy tx ty b) (moved sx sy tx ty c) =
      sx * sy * orient a b c := by
    intro a b c; simp only [orient, moved]; ring
  have hp : 0 < sx * sy := mul_pos hx hy
  have hle : ∀ a b : Pt K, (moved sx sy tx ty a).y ≤ (moved sx sy tx ty b).y ↔ a.y ≤ b.y := by
    intro a b; simp only [moved]; rw [add_le_add_iff_right, mul_le_mul_iff_of_pos_left hy]
  have hlt : ∀ a b : Pt K, (moved sx sy tx ty a).y < (moved sx sy tx ty b).y ↔ a.y < b.y := by
    intro a b; rw [← not_le, ← not_le, hle]
  have hu : ∀ e : Pt K × Pt K, Up (moved sx sy tx ty p) (Prod.map (moved sx sy tx ty) (moved sx sy tx ty) e) ↔ Up p e := by
    intro e; simp only [Up, Prod.map_fst, Prod.map_snd, hle, hlt, ho, mul_pos_iff_of_pos_left hp]
  have hd : ∀ e : Pt K × Pt K, Dn (moved sx sy tx ty p) (Prod.map (moved sx sy tx ty) (moved sx sy tx ty) e) ↔ Dn p e := by
    intro e; simp only [Dn, Prod.map_fst, Prod.map_snd, hle, hlt, ho]
    have : sx * sy * orient e.1 e.2 p < 0 ↔ orient e.1 e.2 p < 0 := by
      rw [← not_le, ← not_le, mul_nonneg_iff_of_pos_left hp]
    rw [this]
  refine ⟨?_, ?_⟩
  · rw [pipCn_eq, pipCn_eq, edges_map]
    congr 2
    simp only [cnSum, List.map_map]
    congr 2
    funext e
    simp [cnInc, hu, hd]
  · rw [winding_eq, winding_eq, edges_map]
    simp only [wnSum, List.map_map]
    congr 2
    funext e
    simp [wnInc, hu, hd]

/-! ## The hypotheses are met -/

/-- a figure of eight drawn twice round one loop: the tests differ, as the winding count is 2 -/
example : pipCn (⟨1, 1⟩ : Pt ℚ) [⟨0, 0⟩, ⟨2, 0⟩, ⟨2, 2⟩, ⟨0, 2⟩, ⟨0, 0⟩, ⟨2, 0⟩, ⟨2, 2⟩, ⟨0, 2⟩] = false ∧
    pipWn (⟨1, 1⟩ : Pt ℚ) [⟨0, 0⟩, ⟨2, 0⟩, ⟨2, 2⟩, ⟨0, 2⟩, ⟨0, 0⟩, ⟨2, 0⟩, ⟨2, 2⟩, ⟨0, 2⟩] = true := by
  decide +kernel

example : StrictlyInside (⟨0, 0⟩ : Pt ℚ) ⟨4, 1⟩ ⟨1, 5⟩ ⟨1, 1⟩ := by
  left; decide +kernel

example : pipCn (⟨1, 1⟩ : Pt ℚ) [⟨0, 0⟩, ⟨4, 1⟩, ⟨1, 5⟩] = true ∧ pipCn (⟨3, 3⟩ : Pt ℚ) [⟨0, 0⟩, ⟨4, 1⟩, ⟨1, 5⟩] = false := by
  decide +kernel

end Verif.Polygon
