import Verif.Geom.PropsScan
import Mathlib.Data.List.Nodup

/-! # C89, second part: the mesh points found -/

namespace Verif.Geom
variable {K : Type} [Field K] [LinearOrder K] [IsStrictOrderedRing K] [FloorRing K]

/-! ## Ranges -/

theorem mem_intRange {lo hi x : Int} : x ∈ intRange lo hi ↔ lo ≤ x ∧ x < hi := by
  unfold intRange
  simp only [List.mem_map, List.mem_range]
  constructor
  · rintro ⟨n, h1, rfl⟩
    omega
  · rintro ⟨h1, h2⟩
    exact ⟨(x - lo).toNat, by omega, by omega⟩

theorem nodup_intRange (lo hi : Int) : (intRange lo hi).Nodup := by
  unfold intRange
  refine List.Nodup.map ?_ List.nodup_range
  intro a b h
  dsimp only at h
  omega

omit [IsStrictOrderedRing K] in
theorem mem_mesh {f c : K} {n : Nat} {y : Int} :
    y ∈ intRange (max ⌈f⌉ 0) (min (⌊c⌋ + 1) n) ↔ 0 ≤ y ∧ y < n ∧ f ≤ (y : K) ∧ (y : K) ≤ c := by
  rw [mem_intRange, max_le_iff, lt_min_iff, Int.lt_add_one_iff, Int.ceil_le, Int.le_floor]
  tauto

/-! ## Smallest and largest -/

omit [Field K] [IsStrictOrderedRing K] [FloorRing K] in
theorem nanMin_spec (l : List (Option K)) :
    (nanMin l = none ∧ ∀ v, some v ∉ l) ∨ ∃ m, nanMin l = some m ∧ some m ∈ l ∧ ∀ v, some v ∈ l → m ≤ v := by
  induction l with
  | nil => exact Or.inl ⟨rfl, fun v hv => (List.not_mem_nil hv).elim⟩
  | cons e l ih =>
    cases e with
    | none =>
      rcases ih with ⟨h1, h2⟩ | ⟨m, h1, h2, h3⟩
      · refine Or.inl ⟨h1, fun v hv => ?_⟩
        rcases List.mem_cons.mp hv with h | h
        · cases h
        · exact h2 v h
      · refine Or.inr ⟨m, h1, List.mem_cons_of_mem _ h2, fun v hv => ?_⟩
        rcases List.mem_cons.mp hv with h | h
        · cases h
        · exact h3 v h
    | some a =>
      rcases ih with ⟨h1, h2⟩ | ⟨m, h1, h2, h3⟩
      · refine Or.inr ⟨a, by rw [nanMin, h1], List.mem_cons_self, fun v hv => ?_⟩
        rcases List.mem_cons.mp hv with h | h
        · cases h; exact le_refl _
        · exact absurd h (h2 v)
      · refine Or.inr ⟨min a m, by rw [nanMin, h1], ?_, fun v hv => ?_⟩
        · rcases min_choice a m with h | h
          · rw [h]; exact List.mem_cons_self
          · rw [h]; exact List.mem_cons_of_mem _ h2
        · rcases List.mem_cons.mp hv with h | h
          · cases h; exact min_le_left _ _
          · exact le_trans (min_le_right _ _) (h3 v h)

omit [Field K] [IsStrictOrderedRing K] [FloorRing K] in
theorem nanMax_spec (l : List (Option K)) :
    (nanMax l = none ∧ ∀ v, some v ∉ l) ∨ ∃ m, nanMax l = some m ∧ some m ∈ l ∧ ∀ v, some v ∈ l → v ≤ m := by
  induction l with
  | nil => exact Or.inl ⟨rfl, fun v hv => (List.not_mem_nil hv).elim⟩
  | cons e l ih =>
    cases e with
    | none =>
      rcases ih with ⟨h1, h2⟩ | ⟨m, h1, h2, h3⟩
      · refine Or.inl ⟨h1, fun v hv => ?_⟩
        rcases List.mem_cons.mp hv with h | h
        · cases h
        · exact h2 v h
      · refine Or.inr ⟨m, h1, List.mem_cons_of_mem _ h2, fun v hv => ?_⟩
        rcases List.mem_cons.mp hv with h | h
        · cases h
        · exact h3 v h
    | some a =>
      rcases ih with ⟨h1, h2⟩ | ⟨m, h1, h2, h3⟩
      · refine Or.inr ⟨a, by rw [nanMax, h1], List.mem_cons_self, fun v hv => ?_⟩
        rcases List.mem_cons.mp hv with h | h
        · cases h; exact le_refl _
        · exact absurd h (h2 v)
      · refine Or.inr ⟨max a m, by rw [nanMax, h1], ?_, fun v hv => ?_⟩
        · rcases max_choice a m with h | h
          · rw [h]; exact List.mem_cons_self
          · rw [h]; exact List.mem_cons_of_mem _ h2
        · rcases List.mem_cons.mp hv with h | h
          · cases h; exact le_max_left _ _
          · exact le_trans (h3 v h) (le_max_right _ _)

/-! ## One triangle -/

omit [IsStrictOrderedRing K] [FloorRing K] in
/-- an edge is met if and only if the line is between its ends -/
theorem intercept_isSome {x x0 x1 y0 y1 : K} : (∃ y, interceptNan x x0 x1 y0 y1 = some y) ↔ min x0 x1 ≤ x ∧ x ≤ max x0 x1 := by
  unfold interceptNan
  by_cases h : x1 < x0
  · rw [if_pos h]
    dsimp only
    rw [min_eq_right (le_of_lt h), max_eq_left (le_of_lt h)]
    by_cases hx : x1 ≤ x ∧ x ≤ x0
    · rw [if_pos hx]
      refine ⟨fun _ => hx, fun _ => ?_⟩
      split
      · exact ⟨_, rfl⟩
      · exact ⟨_, rfl⟩
    · rw [if_neg hx]
      exact ⟨fun ⟨y, hy⟩ => (by cases hy), fun h => absurd h hx⟩
  · rw [if_neg h]
    dsimp only
    rw [min_eq_left (not_lt.mp h), max_eq_right (not_lt.mp h)]
    by_cases hx : x0 ≤ x ∧ x ≤ x1
    · rw [if_pos hx]
      refine ⟨fun _ => hx, fun _ => ?_⟩
      split
      · exact ⟨_, rfl⟩
      · exact ⟨_, rfl⟩
    · rw [if_neg hx]
      exact ⟨fun ⟨y, hy⟩ => (by cases hy), fun h => absurd h hx⟩

omit [IsStrictOrderedRing K] [FloorRing K] in
/-- a line through the box of the triangle meets an edge, so that the code never rounds nan -/
theorem some_intercept (t : Tri2 K) {x : K} (hlo : min (min t.a.1 t.b.1) t.c.1 ≤ x) (hhi : x ≤ max (max t.a.1 t.b.1) t.c.1) :
    ∃ y, some y ∈ edgeVals t x := by
  unfold edgeVals
  by_cases h1 : min t.b.1 t.c.1 ≤ x ∧ x ≤ max t.b.1 t.c.1
  · obtain ⟨y, hy⟩ := intercept_isSome (y0 := t.b.2) (y1 := t.c.2).mpr h1
    exact ⟨y, by rw [hy]; simp⟩
  by_cases h2 : min t.a.1 t.b.1 ≤ x ∧ x ≤ max t.a.1 t.b.1
  · obtain ⟨y, hy⟩ := intercept_isSome (y0 := t.a.2) (y1 := t.b.2).mpr h2
    exact ⟨y, by rw [hy]; simp⟩
  exfalso
  simp only [min_le_iff, le_max_iff] at hlo hhi h1 h2
  rcases le_total x t.b.1 with hb | hb
  · have ha : ¬ t.a.1 ≤ x := fun h => h2 ⟨Or.inl h, Or.inr hb⟩
    have hc : ¬ t.c.1 ≤ x := fun h => h1 ⟨Or.inr h, Or.inl hb⟩
    rcases hlo with (h | h) | h
    · exact ha h
    · exact h2 ⟨Or.inr h, Or.inr hb⟩
    · exact hc h
  · have ha : ¬ x ≤ t.a.1 := fun h => h2 ⟨Or.inr hb, Or.inl h⟩
    have hc : ¬ x ≤ t.c.1 := fun h => h1 ⟨Or.inl hb, Or.inr h⟩
    rcases hhi with (h | h) | h
    · exact ha h
    · exact h2 ⟨Or.inr hb, Or.inr h⟩
    · exact hc h

omit [FloorRing K] in
theorem inTri2_box {t : Tri2 K} {p : K × K} (h : InTri2 t p) : min (min t.a.1 t.b.1) t.c.1 ≤ p.1 ∧ p.1 ≤ max (max t.a.1 t.b.1) t.c.1 := by
  obtain ⟨f, g, h, f0, g0, h0, hs, hx, -⟩ := h
  constructor
  · have l1 : min (min t.a.1 t.b.1) t.c.1 ≤ t.a.1 := le_trans (min_le_left _ _) (min_le_left _ _)
    have l2 : min (min t.a.1 t.b.1) t.c.1 ≤ t.b.1 := le_trans (min_le_left _ _) (min_le_right _ _)
    have l3 : min (min t.a.1 t.b.1) t.c.1 ≤ t.c.1 := min_le_right _ _
    generalize min (min t.a.1 t.b.1) t.c.1 = m at *
    have e3 : f * m + g * m + h * m = m := by rw [← add_mul, ← add_mul, hs, one_mul]
    have k1 := mul_le_mul_of_nonneg_left l1 f0
    have k2 := mul_le_mul_of_nonneg_left l2 g0
    have k3 := mul_le_mul_of_nonneg_left l3 h0
    linarith
  · have l1 : t.a.1 ≤ max (max t.a.1 t.b.1) t.c.1 := le_trans (le_max_left _ _) (le_max_left _ _)
    have l2 : t.b.1 ≤ max (max t.a.1 t.b.1) t.c.1 := le_trans (le_max_right _ _) (le_max_left _ _)
    have l3 : t.c.1 ≤ max (max t.a.1 t.b.1) t.c.1 := le_max_right _ _
    generalize max (max t.a.1 t.b.1) t.c.1 = m at *
    have e3 : f * m + g * m + h * m = m := by rw [← add_mul, ← add_mul, hs, one_mul]
    have k1 := mul_le_mul_of_nonneg_left l1 f0
    have k2 := mul_le_mul_of_nonneg_left l2 g0
    have k3 := mul_le_mul_of_nonneg_left l3 h0
    linarith

theorem mem_trianglePoints (nx ny t : Nat) (tri : Tri2 K) (t' : Nat) (y x : Int) :
    (t', y, x) ∈ trianglePoints nx ny t tri ↔ t' = t ∧ 0 ≤ x ∧ x < nx ∧ 0 ≤ y ∧ y < ny ∧
      ∃ lo hi, some lo ∈ edgeVals tri (x : K) ∧ some hi ∈ edgeVals tri (x : K) ∧ lo ≤ (y : K) ∧ (y : K) ≤ hi := by
  unfold trianglePoints
  dsimp only
  rw [List.mem_flatMap]
  constructor
  · rintro ⟨xi, hxi, hm⟩
    rw [mem_mesh] at hxi
    split at hm
    · rename_i f c hf hc
      obtain ⟨y', hy', he⟩ := List.mem_map.mp hm
      cases he
      rw [mem_mesh] at hy'
      refine ⟨rfl, hxi.1, hxi.2.1, hy'.1, hy'.2.1, f, c, ?_, ?_, hy'.2.2.1, hy'.2.2.2⟩
      · rcases nanMin_spec (edgeVals tri (x : K)) with ⟨h1, -⟩ | ⟨m, h1, h2, -⟩
        · exact absurd (h1.symm.trans hf) (by simp)
        · have := Option.some.inj (h1.symm.trans hf); rw [← this]; exact h2
      · rcases nanMax_spec (edgeVals tri (x : K)) with ⟨h1, -⟩ | ⟨m, h1, h2, -⟩
        · exact absurd (h1.symm.trans hc) (by simp)
        · have := Option.some.inj (h1.symm.trans hc); rw [← this]; exact h2
    · exact (List.not_mem_nil hm).elim
  · rintro ⟨rfl, x0, x1, y0, y1, lo, hi, hlo, hhi, hl, hh⟩
    have hb := inTri2_box (edge_in hlo)
    refine ⟨x, mem_mesh.mpr ⟨x0, x1, hb.1, hb.2⟩, ?_⟩
    rcases nanMin_spec (edgeVals tri (x : K)) with ⟨-, h2⟩ | ⟨m, h1, -, h3⟩
    · exact absurd hlo (h2 lo)
    rcases nanMax_spec (edgeVals tri (x : K)) with ⟨-, h2'⟩ | ⟨m', h1', -, h3'⟩
    · exact absurd hlo (h2' lo)
    unfold edgeVals at h1 h1'
    rw [h1, h1']
    exact List.mem_map.mpr ⟨y, mem_mesh.mpr ⟨y0, y1, le_trans (h3 lo hlo) hl, le_trans hh (h3' hi hhi)⟩, rfl⟩

omit [IsStrictOrderedRing K] in
theorem fst_trianglePoints {nx ny t : Nat} {tri : Tri2 K} {e : Nat × Int × Int} (h : e ∈ trianglePoints nx ny t tri) : e.1 = t := by
  unfold trianglePoints at h
  dsimp only at h
  obtain ⟨xi, -, hm⟩ := List.mem_flatMap.mp h
  split at hm
  · obtain ⟨y, -, rfl⟩ := List.mem_map.mp hm
    rfl
  · exact (List.not_mem_nil hm).elim

omit [IsStrictOrderedRing K] in
theorem nodup_trianglePoints (nx ny t : Nat) (tri : Tri2 K) : (trianglePoints nx ny t tri).Nodup := by
  unfold trianglePoints
  dsimp only
  rw [List.nodup_flatMap]
  constructor
  · intro x _
    split
    · refine (nodup_intRange _ _).map ?_
      intro a b h
      cases h
      rfl
    · exact List.nodup_nil
  · refine (nodup_intRange _ _).imp ?_
    intro a b hab e h1 h2
    have key : ∀ x : Int, (e ∈ (match nanMin [interceptNan (x : K) tri.b.1 tri.c.1 tri.b.2 tri.c.2, interceptNan (x : K) tri.a.1 tri.b.1 tri.a.2 tri.b.2,
               interceptNan (x : K) tri.a.1 tri.c.1 tri.a.2 tri.c.2], nanMax [interceptNan (x : K) tri.b.1 tri.c.1 tri.b.2 tri.c.2, interceptNan (x : K) tri.a.1 tri.b.1 tri.a.2 tri.b.2,
               interceptNan (x : K) tri.a.1 tri.c.1 tri.a.2 tri.c.2] with
        | some f, some c => (intRange (max ⌈f⌉ 0) (min (⌊c⌋ + 1) ny)).map fun (y : Int) => (t, y, x)
        | _, _ => [])) → e.2.2 = x := by
      intro x h
      split at h
      · obtain ⟨y, -, rfl⟩ := List.mem_map.mp h
        rfl
      · exact (List.not_mem_nil h).elim
    exact hab ((key a h1).symm.trans (key b h2))

/-! ## Batches -/

theorem zipIdx_slices {A : Type} (l : List A) (s n : Nat) :
    ((List.range n).flatMap fun b => ((l.drop (b * s)).take s).zipIdx (b * s)) = (l.take (n * s)).zipIdx := by
  induction n with
  | zero => simp
  | succ n ih =>
    rw [List.range_succ, List.flatMap_append, ih, Nat.succ_mul, List.take_add, List.zipIdx_append]
    congr 1
    rw [List.flatMap_cons, List.flatMap_nil, List.append_nil]
    by_cases h : n * s ≤ l.length
    · rw [List.length_take, min_eq_left h, Nat.zero_add]
    · rw [List.drop_eq_nil_of_le (by omega)]
      simp

theorem inBatches_eq {A B : Type} (g : A × Nat → List B) {nb : Nat} (hnb : 0 < nb) (l : List A) :
    inBatches (fun base l => (l.zipIdx base).flatMap g) nb l = (l.zipIdx 0).flatMap g := by
  unfold inBatches
  by_cases h0 : l.length = 0
  · rw [if_pos h0, List.eq_nil_of_length_eq_zero h0]
    rfl
  rw [if_neg h0]
  dsimp only
  generalize hn : min l.length nb = n
  have hn0 : 0 < n := by omega
  generalize hs : (l.length - 1) / n + 1 = s
  have hle : l.length ≤ n * s := by
    have := Nat.lt_mul_div_succ (l.length - 1) hn0
    rw [hs] at this
    omega
  have e : ∀ b, (b + 1) * s - b * s = s := fun b => by rw [Nat.succ_mul]; omega
  simp only [e]
  rw [← List.flatMap_assoc, zipIdx_slices, List.take_of_length_le hle]

/-! ## All triangles -/

omit [IsStrictOrderedRing K] in
/-- C89: the number of batches makes no difference: the list is that of the serial version. -/
theorem C89_batches (nx ny : Nat) (dx dy : K) (tris : List (Tri2 K)) {nBatches : Nat} (h : 0 < nBatches) :
    pointsInTriangles nx ny dx dy tris nBatches = pointsInTrianglesSerial nx ny dx dy tris :=
  inBatches_eq (fun e => trianglePoints nx ny e.2 e.1) h _

omit [IsStrictOrderedRing K] in
theorem mem_batchPoints {nx ny : Nat} {tris : List (Tri2 K)} {e : Nat × Int × Int} :
    e ∈ batchPoints nx ny 0 tris ↔ ∃ tri, tris[e.1]? = some tri ∧ e ∈ trianglePoints nx ny e.1 tri := by
  unfold batchPoints
  rw [List.mem_flatMap]
  constructor
  · rintro ⟨⟨tri, n⟩, h1, h2⟩
    rw [List.mem_zipIdx_iff_getElem?] at h1
    dsimp only at h1 h2
    have hn := fst_trianglePoints h2
    subst hn
    exact ⟨tri, h1, h2⟩
  · rintro ⟨tri, h1, h2⟩
    exact ⟨(tri, e.1), List.mem_zipIdx_iff_getElem?.mpr h1, h2⟩

omit [LinearOrder K] [IsStrictOrderedRing K] [FloorRing K] in
theorem normalised_mesh {dx dy : K} (hx : dx ≠ 0) (hy : dy ≠ 0) (x y : K) :
    normalised dx dy (dx * (x + 1 / 2), dy * (y + 1 / 2)) = (x, y) := by
  unfold normalised
  dsimp only
  rw [mul_div_cancel_left₀ _ hx, mul_div_cancel_left₀ _ hy, add_sub_cancel_right, add_sub_cancel_right]

omit [FloorRing K] in
theorem inTri2_normalised {dx dy : K} (hx : dx ≠ 0) (hy : dy ≠ 0) (t : Tri2 K) (x y : K) :
    InTri2 (t.normalised dx dy) (x, y) ↔ InTri2 t (dx * (x + 1 / 2), dy * (y + 1 / 2)) := by
  unfold InTri2 Tri2.normalised normalised
  dsimp only
  constructor
  · rintro ⟨f, g, h, f0, g0, h0, hs, e1, e2⟩
    refine ⟨f, g, h, f0, g0, h0, hs, ?_, ?_⟩
    · rw [e1]
      have : f * (t.a.1 / dx - 1 / 2) + g * (t.b.1 / dx - 1 / 2) + h * (t.c.1 / dx - 1 / 2) + 1 / 2 = (f * t.a.1 + g * t.b.1 + h * t.c.1) / dx := by
        field_simp
        linear_combination (-dx) * hs
      rw [this, mul_div_cancel₀ _ hx]
    · rw [e2]
      have : f * (t.a.2 / dy - 1 / 2) + g * (t.b.2 / dy - 1 / 2) + h * (t.c.2 / dy - 1 / 2) + 1 / 2 = (f * t.a.2 + g * t.b.2 + h * t.c.2) / dy := by
        field_simp
        linear_combination (-dy) * hs
      rw [this, mul_div_cancel₀ _ hy]
  · rintro ⟨f, g, h, f0, g0, h0, hs, e1, e2⟩
    refine ⟨f, g, h, f0, g0, h0, hs, ?_, ?_⟩
    · have : f * (t.a.1 / dx - 1 / 2) + g * (t.b.1 / dx - 1 / 2) + h * (t.c.1 / dx - 1 / 2) = (f * t.a.1 + g * t.b.1 + h * t.c.1) / dx - 1 / 2 := by
        field_simp
        linear_combination (-dx) * hs
      rw [this, ← e1, mul_div_cancel_left₀ _ hx, add_sub_cancel_right]
    · have : f * (t.a.2 / dy - 1 / 2) + g * (t.b.2 / dy - 1 / 2) + h * (t.c.2 / dy - 1 / 2) = (f * t.a.2 + g * t.b.2 + h * t.c.2) / dy - 1 / 2 := by
        field_simp
        linear_combination (-dy) * hs
      rw [this, ← e2, mul_div_cancel_left₀ _ hy, add_sub_cancel_right]

omit [LinearOrder K] [IsStrictOrderedRing K] [FloorRing K] in
theorem upright_normalised {dx dy : K} (hx : dx ≠ 0) (t : Tri2 K) : Upright (t.normalised dx dy) ↔ Upright t := by
  have key : ∀ p q : K, p / dx - 1 / 2 = q / dx - 1 / 2 ↔ p = q := fun p q => by
    rw [sub_left_inj, div_left_inj' hx]
  unfold Upright Tri2.normalised normalised
  dsimp only
  rw [key, key]

/-- C89: every point returned is a point of the mesh which is in the triangle, whatever the triangles. -/
theorem C89_found_are_inside (nx ny : Nat) {dx dy : K} (hdx : dx ≠ 0) (hdy : dy ≠ 0) (tris : List (Tri2 K)) {nBatches : Nat} (hnb : 0 < nBatches)
    {t : Nat} {y x : Int} (h : (t, y, x) ∈ pointsInTriangles nx ny dx dy tris nBatches) :
    ∃ tri, tris[t]? = some tri ∧ 0 ≤ x ∧ x < nx ∧ 0 ≤ y ∧ y < ny ∧ InTri2 tri (dx * (x + 1 / 2), dy * (y + 1 / 2)) := by
  rw [C89_batches _ _ _ _ _ hnb] at h
  obtain ⟨tri', h1, h2⟩ := mem_batchPoints.mp h
  dsimp only at h1 h2
  rw [List.getElem?_map] at h1
  obtain ⟨tri, h3, rfl⟩ := Option.map_eq_some_iff.mp h1
  obtain ⟨-, x0, x1, y0, y1, lo, hi, k1, k2, k3, k4⟩ := (mem_trianglePoints _ _ _ _ _ _ _).mp h2
  exact ⟨tri, h3, x0, x1, y0, y1, (inTri2_normalised hdx hdy _ _ _).mp (between_in (edge_in k1) (edge_in k2) k3 k4)⟩

/-- C89: the points returned for a triangle are exactly those of the mesh which are in it or on its boundary.  Missing are triangles of
which all corners have the same x, see `C89_upright_violated`. -/
theorem C89_mesh_points_partial (nx ny : Nat) {dx dy : K} (hdx : dx ≠ 0) (hdy : dy ≠ 0) (tris : List (Tri2 K)) {nBatches : Nat}
    (hnb : 0 < nBatches) {t : Nat} {tri : Tri2 K} (htri : tris[t]? = some tri) (hup : ¬ Upright tri) (y x : Int) :
    (t, y, x) ∈ pointsInTriangles nx ny dx dy tris nBatches ↔
      0 ≤ x ∧ x < nx ∧ 0 ≤ y ∧ y < ny ∧ InTri2 tri (dx * (x + 1 / 2), dy * (y + 1 / 2)) := by
  constructor
  · intro h
    obtain ⟨tri', h1, h2⟩ := C89_found_are_inside nx ny hdx hdy tris hnb h
    rw [htri] at h1
    cases h1
    exact h2
  · rintro ⟨x0, x1, y0, y1, h⟩
    rw [C89_batches _ _ _ _ _ hnb]
    refine mem_batchPoints.mpr ⟨tri.normalised dx dy, by dsimp only; rw [List.getElem?_map, htri]; rfl, ?_⟩
    refine (mem_trianglePoints _ _ _ _ _ _ _).mpr ⟨rfl, x0, x1, y0, y1, ?_⟩
    exact (span_iff (fun h => hup ((upright_normalised hdx tri).mp h)) _ _).mpr ((inTri2_normalised hdx hdy _ _ _).mpr h)

omit [IsStrictOrderedRing K] in
/-- C89: each triangle and point of the mesh is returned at most once. -/
theorem C89_once (nx ny : Nat) (dx dy : K) (tris : List (Tri2 K)) {nBatches : Nat} (hnb : 0 < nBatches) :
    (pointsInTriangles nx ny dx dy tris nBatches).Nodup := by
  rw [C89_batches _ _ _ _ _ hnb]
  unfold pointsInTrianglesSerial batchPoints
  generalize tris.map (Tri2.normalised dx dy) = l
  generalize 0 = base
  induction l generalizing base with
  | nil => exact List.nodup_nil
  | cons tri l ih =>
    rw [List.zipIdx_cons, List.flatMap_cons, List.nodup_append]
    refine ⟨nodup_trianglePoints _ _ _ _, ih _, ?_⟩
    intro e h1 e' h2 he
    subst he
    obtain ⟨⟨tri', n⟩, h3, h4⟩ := List.mem_flatMap.mp h2
    have := List.le_snd_of_mem_zipIdx h3
    have a := fst_trianglePoints h1
    have b := fst_trianglePoints h4
    dsimp only at a b this
    omega

/-- C89: a triangle flattened onto a line of constant x: the points beyond its first two corners are missed.  The point (1, 3) is the third
corner of the triangle. -/
theorem C89_upright_violated :
    ∃ (tri : Tri2 ℚ) (x y : Int), 0 ≤ x ∧ x < 4 ∧ 0 ≤ y ∧ y < 4 ∧ InTri2 tri (1 * (x + 1 / 2), 1 * (y + 1 / 2)) ∧
      ∀ nBatches, 0 < nBatches → (0, y, x) ∉ pointsInTriangles 4 4 1 1 [tri] nBatches := by
  refine ⟨⟨(3 / 2, 1 / 2), (3 / 2, 3 / 2), (3 / 2, 7 / 2)⟩, 1, 3, by decide, by decide, by decide, by decide, ?_, ?_⟩
  · exact ⟨0, 0, 1, le_refl _, le_refl _, zero_le_one, by norm_num, by norm_num, by norm_num⟩
  · intro nb hnb
    rw [C89_batches _ _ _ _ _ hnb]
    have : pointsInTrianglesSerial 4 4 1 1 [(⟨(3 / 2, 1 / 2), (3 / 2, 3 / 2), (3 / 2, 7 / 2)⟩ : Tri2 ℚ)] = [(0, 0, 1), (0, 1, 1)] := by
      decide +kernel
    rw [this]
    decide

/-! ## Sampled values -/

/-- the triangle seen along the third of the axes -/
def Tri.seen (ax ay : Nat) (t : Tri K) : Tri2 K := ⟨(t.a.axis ax, t.a.axis ay), (t.b.axis ax, t.b.axis ay), (t.c.axis ax, t.c.axis ay)⟩

/-- heights at which the line at `x` meets the edges, with the values there -/
def edgeValsZ (ax ay az : Nat) (t : Tri K) (x : K) : List (Option (K × K)) :=
  [interceptNanYZ x (t.b.axis ax) (t.c.axis ax) (t.b.axis ay) (t.c.axis ay) (t.b.axis az) (t.c.axis az),
   interceptNanYZ x (t.a.axis ax) (t.b.axis ax) (t.a.axis ay) (t.b.axis ay) (t.a.axis az) (t.b.axis az),
   interceptNanYZ x (t.a.axis ax) (t.c.axis ax) (t.a.axis ay) (t.c.axis ay) (t.a.axis az) (t.c.axis az)]

omit [IsStrictOrderedRing K] [FloorRing K] in
theorem edgeValsZ_fst (ax ay az : Nat) (t : Tri K) (x : K) : (edgeValsZ ax ay az t x).map (Option.map Prod.fst) = edgeVals (t.seen ax ay) x := by
  unfold edgeValsZ edgeVals Tri.seen
  simp only [List.map_cons, List.map_nil, interceptYZ_fst]

omit [Field K] [IsStrictOrderedRing K] [FloorRing K] in
/-- lowest and highest of three: they are among the three, and at the least and the greatest height -/
theorem span_spec (e0 e1 e2 : Option (K × K)) :
    match spanThird e2 (spanSecond e1 (spanFirst e0)) with
    | none => e0 = none ∧ e1 = none ∧ e2 = none
    | some (f, c) => some f ∈ [e0, e1, e2] ∧ some c ∈ [e0, e1, e2] ∧
        nanMin ([e0, e1, e2].map (Option.map Prod.fst)) = some f.1 ∧ nanMax ([e0, e1, e2].map (Option.map Prod.fst)) = some c.1 := by
  have comm : ∀ (p q r : K), min p (min q r) = min (min p q) r := fun p q r => (min_assoc p q r).symm
  have comm' : ∀ (p q r : K), max p (max q r) = max (max p q) r := fun p q r => (max_assoc p q r).symm
  cases e0 with
  | none =>
    cases e1 with
    | none => cases e2 with
      | none => simp [spanFirst, spanSecond, spanThird]
      | some e2 => simp [spanFirst, spanSecond, spanThird, nanMin, nanMax]
    | some e1 => cases e2 with
      | none => simp [spanFirst, spanSecond, spanThird, nanMin, nanMax]
      | some e2 =>
        simp only [spanFirst, spanSecond, spanThird, Option.map_none]
        by_cases h : e2.1 < e1.1
        · simp [h, nanMin, nanMax, le_of_lt h]
        · by_cases h' : e1.1 < e2.1
          · simp [h, h', nanMin, nanMax, le_of_lt h']
          · have := le_antisymm (not_lt.mp h) (not_lt.mp h')
            simp [nanMin, nanMax, this]
  | some e0 =>
    cases e1 with
    | none => cases e2 with
      | none => simp [spanFirst, spanSecond, spanThird, nanMin, nanMax]
      | some e2 =>
        simp only [spanFirst, spanSecond, spanThird, Option.map_some]
        by_cases h : e2.1 < e0.1
        · simp [h, nanMin, nanMax, le_of_lt h]
        · by_cases h' : e0.1 < e2.1
          · simp [h, h', nanMin, nanMax, le_of_lt h']
          · have := le_antisymm (not_lt.mp h) (not_lt.mp h')
            simp [nanMin, nanMax, this]
    | some e1 => cases e2 with
      | none =>
        simp only [spanFirst, spanSecond, spanThird, Option.map_some]
        by_cases h : e1.1 < e0.1
        · simp [h, nanMin, nanMax, le_of_lt h]
        · simp [h, nanMin, nanMax, not_lt.mp h]
      | some e2 =>
        simp only [spanFirst, spanSecond, spanThird, Option.map_some]
        by_cases h : e1.1 < e0.1
        · rw [if_pos h]
          dsimp only
          by_cases h2 : e2.1 < e1.1
          · rw [if_pos h2]
            simp [nanMin, nanMax, le_of_lt h, le_of_lt h2, le_of_lt (lt_trans h2 h)]
          · rw [if_neg h2]
            by_cases h3 : e0.1 < e2.1
            · rw [if_pos h3]
              simp [nanMin, nanMax, le_of_lt h, not_lt.mp h2, le_of_lt h3]
            · rw [if_neg h3]
              simp [nanMin, nanMax, le_of_lt h, not_lt.mp h2, not_lt.mp h3]
        · rw [if_neg h]
          dsimp only
          by_cases h2 : e2.1 < e0.1
          · rw [if_pos h2]
            have h4 : e2.1 ≤ e1.1 := le_trans (le_of_lt h2) (not_lt.mp h)
            simp [nanMin, nanMax, not_lt.mp h, le_of_lt h2, h4]
          · rw [if_neg h2]
            by_cases h3 : e1.1 < e2.1
            · rw [if_pos h3]
              simp [nanMin, nanMax, not_lt.mp h, not_lt.mp h2, le_of_lt h3]
            · rw [if_neg h3]
              simp [nanMin, nanMax, not_lt.mp h, not_lt.mp h2, not_lt.mp h3]

/-- the weighted mean of the corners in each axis -/
theorem edgeZ_in {ax ay az : Nat} {t : Tri K} {x : K} {e : K × K} (h : some e ∈ edgeValsZ ax ay az t x) :
    ∃ f g h : K, 0 ≤ f ∧ 0 ≤ g ∧ 0 ≤ h ∧ f + g + h = 1 ∧ x = f * t.a.axis ax + g * t.b.axis ax + h * t.c.axis ax ∧
      e.1 = f * t.a.axis ay + g * t.b.axis ay + h * t.c.axis ay ∧ e.2 = f * t.a.axis az + g * t.b.axis az + h * t.c.axis az := by
  unfold edgeValsZ at h
  simp only [List.mem_cons, List.not_mem_nil, or_false] at h
  rcases h with h | h | h
  · obtain ⟨s, h0, h1, e1, e2, e3⟩ := interceptYZ_some (y := e.1) (z := e.2) h.symm
    exact ⟨0, 1 - s, s, le_refl _, by linarith, h0, by ring, by rw [e1]; ring, by rw [e2]; ring, by rw [e3]; ring⟩
  · obtain ⟨s, h0, h1, e1, e2, e3⟩ := interceptYZ_some (y := e.1) (z := e.2) h.symm
    exact ⟨1 - s, s, 0, by linarith, h0, le_refl _, by ring, by rw [e1]; ring, by rw [e2]; ring, by rw [e3]; ring⟩
  · obtain ⟨s, h0, h1, e1, e2, e3⟩ := interceptYZ_some (y := e.1) (z := e.2) h.symm
    exact ⟨1 - s, 0, s, by linarith, le_refl _, h0, by ring, by rw [e1]; ring, by rw [e2]; ring, by rw [e3]; ring⟩

/-- the points found are those found in the triangle as seen along the third axis -/
theorem trianglePointsZ_fst (nx ny ax ay az t : Nat) (tri : Tri K) :
    (trianglePointsZ nx ny ax ay az t tri).map Prod.fst = trianglePoints nx ny t (tri.seen ax ay) := by
  unfold trianglePointsZ trianglePoints
  dsimp only
  rw [List.map_flatMap]
  congr 1
  funext xi
  have hs := span_spec (interceptNanYZ (xi : K) (tri.b.axis ax) (tri.c.axis ax) (tri.b.axis ay) (tri.c.axis ay) (tri.b.axis az) (tri.c.axis az))
    (interceptNanYZ (xi : K) (tri.a.axis ax) (tri.b.axis ax) (tri.a.axis ay) (tri.b.axis ay) (tri.a.axis az) (tri.b.axis az))
    (interceptNanYZ (xi : K) (tri.a.axis ax) (tri.c.axis ax) (tri.a.axis ay) (tri.c.axis ay) (tri.a.axis az) (tri.c.axis az))
  have he : ∀ n, (List.map (Option.map Prod.fst) [interceptNanYZ (xi : K) (tri.b.axis ax) (tri.c.axis ax) (tri.b.axis ay) (tri.c.axis ay) (tri.b.axis az) (tri.c.axis az),
    interceptNanYZ (xi : K) (tri.a.axis ax) (tri.b.axis ax) (tri.a.axis ay) (tri.b.axis ay) (tri.a.axis az) (tri.b.axis az),
    interceptNanYZ (xi : K) (tri.a.axis ax) (tri.c.axis ax) (tri.a.axis ay) (tri.c.axis ay) (tri.a.axis az) (tri.c.axis az)]) = n →
      edgeVals (tri.seen ax ay) (xi : K) = n := fun n h => by rw [← h, ← edgeValsZ_fst ax ay az]; rfl
  have he := he _ rfl
  unfold edgeVals at he
  dsimp only [Tri.seen] at he ⊢
  split
  · rename_i hn
    rw [hn] at hs
    obtain ⟨h0, h1, h2⟩ := hs
    rw [he, h0, h1, h2]
    rfl
  · rename_i f c hn
    rw [hn] at hs
    obtain ⟨-, -, h1, h2⟩ := hs
    rw [he, h1, h2]
    dsimp only
    rw [List.map_map]
    rfl

/-- C89: the values sampled are on the triangle: there is a point of it at the mesh point returned with the value as its third coordinate. -/
theorem C89_sampled (nx ny : Nat) {ax ay az : Nat} (tris : List (Tri K)) {nBatches : Nat} (hnb : 0 < nBatches)
    {t : Nat} {y x : Int} {z : K} (h : ((t, y, x), z) ∈ pointsInTrianglesZ nx ny ax ay az tris nBatches) :
    ∃ tri q, tris[t]? = some tri ∧ InTriangle tri q ∧ q.axis ax = (x : K) ∧ q.axis ay = (y : K) ∧ q.axis az = z := by
  unfold pointsInTrianglesZ batchPointsZ at h
  rw [inBatches_eq (fun e => trianglePointsZ nx ny ax ay az e.2 e.1) hnb] at h
  obtain ⟨⟨tri, n⟩, h1, h2⟩ := List.mem_flatMap.mp h
  rw [List.mem_zipIdx_iff_getElem?] at h1
  dsimp only at h1 h2
  unfold trianglePointsZ at h2
  dsimp only at h2
  obtain ⟨xi, hxi, hm⟩ := List.mem_flatMap.mp h2
  have hs := span_spec (interceptNanYZ (xi : K) (tri.b.axis ax) (tri.c.axis ax) (tri.b.axis ay) (tri.c.axis ay) (tri.b.axis az) (tri.c.axis az))
    (interceptNanYZ (xi : K) (tri.a.axis ax) (tri.b.axis ax) (tri.a.axis ay) (tri.b.axis ay) (tri.a.axis az) (tri.b.axis az))
    (interceptNanYZ (xi : K) (tri.a.axis ax) (tri.c.axis ax) (tri.a.axis ay) (tri.c.axis ay) (tri.a.axis az) (tri.c.axis az))
  split at hm
  · exact (List.not_mem_nil hm).elim
  rename_i e c hn
  rw [hn] at hs
  obtain ⟨he, hc, -, -⟩ := hs
  obtain ⟨y', hy', hq⟩ := List.mem_map.mp hm
  cases hq
  rw [mem_mesh] at hy'
  obtain ⟨f, g, h, f0, g0, h0, s1, x1, y1, z1⟩ := edgeZ_in (az := az) he
  obtain ⟨f', g', h', f0', g0', h0', s1', x1', y1', z1'⟩ := edgeZ_in (az := az) hc
  obtain ⟨-, -, hle1, hle2⟩ := hy'
  -- the fraction of the way
  obtain ⟨r, r0, r1, ry, rz⟩ : ∃ r, 0 ≤ r ∧ 0 ≤ 1 - r ∧ (y : K) = e.1 + r * (c.1 - e.1) ∧
      (if 0 < c.1 - e.1 then ((y : K) - e.1) / (c.1 - e.1) else (y : K) - e.1) = r := by
    by_cases hp : 0 < c.1 - e.1
    · rw [if_pos hp]
      have hn : c.1 - e.1 ≠ 0 := ne_of_gt hp
      refine ⟨_, div_nonneg (by linarith) (le_of_lt hp), ?_, ?_, rfl⟩
      · have : ((y : K) - e.1) / (c.1 - e.1) ≤ 1 := (div_le_one hp).mpr (by linarith)
        linarith
      · rw [div_mul_cancel₀ _ hn]; ring
    · rw [if_neg hp]
      have hz : (y : K) - e.1 = 0 := by linarith [not_lt.mp hp]
      rw [hz]
      exact ⟨0, le_refl _, by linarith [zero_lt_one (α := K)], by linarith, rfl⟩
  rw [rz]
  -- the point
  let F := f + r * (f' - f)
  let G := g + r * (g' - g)
  let H := h + r * (h' - h)
  have hF : 0 ≤ F := by
    have : F = (1 - r) * f + r * f' := by show f + r * (f' - f) = _; ring
    rw [this]; positivity
  have hG : 0 ≤ G := by
    have : G = (1 - r) * g + r * g' := by show g + r * (g' - g) = _; ring
    rw [this]; positivity
  have hH : 0 ≤ H := by
    have : H = (1 - r) * h + r * h' := by show h + r * (h' - h) = _; ring
    rw [this]; positivity
  have hS : F + G + H = 1 := by
    show f + r * (f' - f) + (g + r * (g' - g)) + (h + r * (h' - h)) = 1
    linear_combination (1 - r) * s1 + r * s1'
  let q : P3 K := ⟨F * tri.a.x + G * tri.b.x + H * tri.c.x, F * tri.a.y + G * tri.b.y + H * tri.c.y, F * tri.a.z + G * tri.b.z + H * tri.c.z⟩
  have hq : ∀ n, q.axis n = F * tri.a.axis n + G * tri.b.axis n + H * tri.c.axis n := by
    intro n
    unfold P3.axis
    split
    · rfl
    · split
      · rfl
      · rfl
  refine ⟨tri, q, h1, ⟨F, G, H, hF, hG, hH, hS, rfl, rfl, rfl⟩, ?_, ?_, ?_⟩
  · rw [hq]
    show (f + r * (f' - f)) * _ + (g + r * (g' - g)) * _ + (h + r * (h' - h)) * _ = _
    linear_combination -(1 - r) * x1 - r * x1'
  · rw [hq, ry, y1, y1']
    show (f + r * (f' - f)) * _ + (g + r * (g' - g)) * _ + (h + r * (h' - h)) * _ = _
    ring
  · rw [hq, z1, z1']
    show (f + r * (f' - f)) * _ + (g + r * (g' - g)) * _ + (h + r * (h' - h)) * _ = _
    ring

/-- C89: with sampled values, the points returned for a triangle are exactly the points of the mesh which are in it or on its boundary as
seen along the third axis.  Missing are triangles of which all corners have the same first coordinate. -/
theorem C89_sampled_points_partial (nx ny ax ay az : Nat) (tris : List (Tri K)) {nBatches : Nat} (hnb : 0 < nBatches) {t : Nat} {tri : Tri K}
    (htri : tris[t]? = some tri) (hup : ¬ (tri.a.axis ax = tri.b.axis ax ∧ tri.b.axis ax = tri.c.axis ax)) (y x : Int) :
    (∃ z, ((t, y, x), z) ∈ pointsInTrianglesZ nx ny ax ay az tris nBatches) ↔
      0 ≤ x ∧ x < nx ∧ 0 ≤ y ∧ y < ny ∧
        InTri2 ⟨(tri.a.axis ax, tri.a.axis ay), (tri.b.axis ax, tri.b.axis ay), (tri.c.axis ax, tri.c.axis ay)⟩ ((x : K), (y : K)) := by
  have e : (∃ z, ((t, y, x), z) ∈ pointsInTrianglesZ nx ny ax ay az tris nBatches) ↔
      (t, y, x) ∈ (pointsInTrianglesZ nx ny ax ay az tris nBatches).map Prod.fst := by
    rw [List.mem_map]
    constructor
    · rintro ⟨z, h⟩
      exact ⟨_, h, rfl⟩
    · rintro ⟨⟨p, z⟩, h, hp⟩
      exact ⟨z, by dsimp only at hp; rw [← hp]; exact h⟩
  have e2 : (pointsInTrianglesZ nx ny ax ay az tris nBatches).map Prod.fst = batchPoints nx ny 0 (tris.map (Tri.seen ax ay)) := by
    unfold pointsInTrianglesZ batchPointsZ
    rw [inBatches_eq (fun e => trianglePointsZ nx ny ax ay az e.2 e.1) hnb, List.map_flatMap]
    unfold batchPoints
    rw [List.zipIdx_map, List.flatMap_map]
    congr 1
    funext a
    exact trianglePointsZ_fst _ _ _ _ _ _ _
  rw [e, e2, mem_batchPoints]
  constructor
  · rintro ⟨tri', h1, h2⟩
    dsimp only at h1 h2
    rw [List.getElem?_map, htri] at h1
    cases h1
    obtain ⟨-, x0, x1, y0, y1, h⟩ := (mem_trianglePoints _ _ _ _ _ _ _).mp h2
    exact ⟨x0, x1, y0, y1, (span_iff (t := tri.seen ax ay) hup _ _).mp h⟩
  · rintro ⟨x0, x1, y0, y1, h⟩
    refine ⟨tri.seen ax ay, by dsimp only; rw [List.getElem?_map, htri]; rfl, ?_⟩
    exact (mem_trianglePoints _ _ _ _ _ _ _).mpr ⟨rfl, x0, x1, y0, y1, (span_iff (t := tri.seen ax ay) hup _ _).mpr h⟩

omit [IsStrictOrderedRing K] [FloorRing K] in
/-- the third coordinate of a point of the triangle is determined by the other two unless the triangle is seen edge on -/
theorem C89_one_value {ax ay az : Nat} {tri : Tri K}
    (harea : (tri.b.axis ax - tri.a.axis ax) * (tri.c.axis ay - tri.a.axis ay) ≠ (tri.b.axis ay - tri.a.axis ay) * (tri.c.axis ax - tri.a.axis ax))
    {q q' : P3 K} (h : InTriangle tri q) (h' : InTriangle tri q') (hx : q.axis ax = q'.axis ax) (hy : q.axis ay = q'.axis ay) :
    q.axis az = q'.axis az := by
  obtain ⟨f, g, h, -, -, -, hs, e1, e2, e3⟩ := h
  obtain ⟨f', g', h', -, -, -, hs', e1', e2', e3'⟩ := h'
  have hq : ∀ n, q.axis n = f * tri.a.axis n + g * tri.b.axis n + h * tri.c.axis n := by
    intro n
    unfold P3.axis
    split
    · exact e1
    · split
      · exact e2
      · exact e3
  have hq' : ∀ n, q'.axis n = f' * tri.a.axis n + g' * tri.b.axis n + h' * tri.c.axis n := by
    intro n
    unfold P3.axis
    split
    · exact e1'
    · split
      · exact e2'
      · exact e3'
  rw [hq, hq'] at hx hy ⊢
  have ef : f = 1 - g - h := by linear_combination hs
  have ef' : f' = 1 - g' - h' := by linear_combination hs'
  subst ef ef'
  have k1 : (g - g') * (tri.b.axis ax - tri.a.axis ax) + (h - h') * (tri.c.axis ax - tri.a.axis ax) = 0 := by linear_combination hx
  have k2 : (g - g') * (tri.b.axis ay - tri.a.axis ay) + (h - h') * (tri.c.axis ay - tri.a.axis ay) = 0 := by linear_combination hy
  have d := sub_ne_zero.mpr harea
  have g0 : g - g' = 0 := by
    refine (mul_eq_zero.mp ?_).resolve_right d
    linear_combination (tri.c.axis ay - tri.a.axis ay) * k1 - (tri.c.axis ax - tri.a.axis ax) * k2
  have h0 : h - h' = 0 := by
    refine (mul_eq_zero.mp ?_).resolve_right d
    linear_combination (tri.b.axis ax - tri.a.axis ax) * k2 - (tri.b.axis ay - tri.a.axis ay) * k1
  linear_combination g0 * (tri.b.axis az - tri.a.axis az) + h0 * (tri.c.axis az - tri.a.axis az)

/-! ## Cases -/

/-- two triangles in a mesh of three by three points spaced by two and one, in one batch or two -/
example : pointsInTriangles 3 3 (2 : ℚ) 1 [⟨(0, 0), (6, 0), (0, 3)⟩, ⟨(5, 0), (5, 3), (6, 1)⟩] 20 =
      [(0, 0, 0), (0, 1, 0), (0, 2, 0), (0, 0, 1), (0, 1, 1), (0, 0, 2), (1, 0, 2), (1, 1, 2), (1, 2, 2)] ∧
    pointsInTrianglesSerial 3 3 (2 : ℚ) 1 [⟨(0, 0), (6, 0), (0, 3)⟩, ⟨(5, 0), (5, 3), (6, 1)⟩] =
      [(0, 0, 0), (0, 1, 0), (0, 2, 0), (0, 0, 1), (0, 1, 1), (0, 0, 2), (1, 0, 2), (1, 1, 2), (1, 2, 2)] := by decide +kernel

/-- a sloping triangle, sampled: the value is one plus x plus twice y -/
example : pointsInTrianglesZ 3 3 0 1 2 [(⟨⟨0, 0, 1⟩, ⟨2, 0, 3⟩, ⟨0, 2, 5⟩⟩ : Tri ℚ)] 20 =
    [((0, 0, 0), 1), ((0, 1, 0), 3), ((0, 2, 0), 5), ((0, 0, 1), 2), ((0, 1, 1), 4), ((0, 0, 2), 3)] := by decide +kernel

end Verif.Geom
