import Verif.Plane.Props

/-!
# C112: the points of a regular mesh in triangles
-/

namespace Verif.Plane
open Verif.Py Verif.Polygon

variable {K : Type} [Field K] [LinearOrder K] [IsStrictOrderedRing K]

theorem pointInTriangle_moved (sx sy tx ty : K) (hx : 0 < sx) (hy : 0 < sy) (p a b c : Pt K) :
    pointInTriangle (moved sx sy tx ty p) (moved sx sy tx ty a) (moved sx sy tx ty b) (moved sx sy tx ty c) =
      pointInTriangle p a b c := by
  rw [C110_versions_agree, C110_versions_agree, pointInPolygon_eq, pointInPolygon_eq]
  have hn : ∀ q : Pt K, neg (moved sx sy tx ty q) = moved sx sy (-tx) (-ty) (neg q) := by
    intro q; simp only [neg, moved, Pt.mk.injEq]; constructor <;> ring
  have := (C36_units sx sy (-tx) (-ty) hx hy (neg p) [neg a, neg b, neg c]).1
  simpa only [List.map_cons, List.map_nil, hn] using this

theorem pointInTriangle_box {p a b c : Pt K} (h : pointInTriangle p a b c = true) :
    min (min a.x b.x) c.x ≤ p.x ∧ p.x ≤ max (max a.x b.x) c.x ∧ min (min a.y b.y) c.y ≤ p.y ∧ p.y ≤ max (max a.y b.y) c.y := by
  unfold pointInTriangle at h
  split at h
  · cases h
  split at h
  · cases h
  split at h
  · cases h
  split at h
  · cases h
  rename_i h1 h2 h3 h4
  exact ⟨not_lt.1 h1, not_lt.1 h2, not_lt.1 h3, not_lt.1 h4⟩

/-- the middle of a cell of the mesh -/
def middle (dx dy : K) (j i : Int) : Pt K := ⟨((i : K) + 1 / 2) * dx, ((j : K) + 1 / 2) * dy⟩

theorem mem_mesh (a b c : Pt K) (nx ny num : Nat) (r : Nat × Int × Int) :
    r ∈ meshPointsInTriangle a b c nx ny num ↔ ∃ yi xi : Nat, yi < ny ∧ xi < nx ∧ r = (num, (yi : Int), (xi : Int)) ∧
      pointInTriangle ⟨(xi : K), (yi : K)⟩ a b c = true := by
  unfold meshPointsInTriangle
  simp only [List.mem_flatMap, List.mem_range, List.mem_filterMap]
  constructor
  · rintro ⟨yi, hy, xi, hx, h⟩
    split at h
    · rename_i hp; cases h; exact ⟨yi, xi, hy, hx, rfl, hp⟩
    · cases h
  · rintro ⟨yi, xi, hy, hx, rfl, hp⟩
    exact ⟨yi, hy, xi, hx, by rw [if_pos hp]⟩

variable [FloorRing K]

theorem mem_aligned (nx ny : Nat) {dx dy : K} (hdx : 0 < dx) (hdy : 0 < dy) (a b c : Pt K) (num : Nat) (r : Nat × Int × Int) :
    r ∈ alignedTriangle nx ny dx dy (a, b, c) num ↔ ∃ j i : Int, r = (num, j, i) ∧ 0 ≤ j ∧ j < ny ∧ 0 ≤ i ∧ i < nx ∧
      pointInTriangle (middle dx dy j i) a b c = true := by
  -- in the units of the mesh
  have hnorm : ∀ j i : Int, pointInTriangle (middle dx dy j i) a b c =
      pointInTriangle ⟨(i : K), (j : K)⟩ (normalised dx dy a) (normalised dx dy b) (normalised dx dy c) := by
    intro j i
    have hm : ∀ q : Pt K, normalised dx dy q = moved (1 / dx) (1 / dy) (-1 / 2) (-1 / 2) q := by
      intro q; simp only [normalised, moved, Pt.mk.injEq]; constructor <;> ring
    have hp : (⟨(i : K), (j : K)⟩ : Pt K) = moved (1 / dx) (1 / dy) (-1 / 2) (-1 / 2) (middle dx dy j i) := by
      simp only [middle, moved, Pt.mk.injEq]
      constructor
      · field_simp; ring
      · field_simp; ring
    rw [hm, hm, hm, hp, pointInTriangle_moved _ _ _ _ (by positivity) (by positivity)]
  simp only [hnorm]
  unfold alignedTriangle
  dsimp only
  generalize normalised dx dy a = a'
  generalize normalised dx dy b = b'
  generalize normalised dx dy c = c'
  have hbox : ∀ j i : Int, 0 ≤ j → j < ny → 0 ≤ i → i < nx → pointInTriangle ⟨(i : K), (j : K)⟩ a' b' c' = true →
      max ⌈min (min a'.x b'.x) c'.x⌉ 0 ≤ i ∧ i ≤ min ⌊max (max a'.x b'.x) c'.x⌋ ((nx : Int) - 1) ∧
      max ⌈min (min a'.y b'.y) c'.y⌉ 0 ≤ j ∧ j ≤ min ⌊max (max a'.y b'.y) c'.y⌋ ((ny : Int) - 1) := by
    intro j i h1 h2 h3 h4 h
    obtain ⟨b1, b2, b3, b4⟩ := pointInTriangle_box h
    exact ⟨max_le (Int.ceil_le.2 b1) h3, le_min (Int.le_floor.2 b2) (by omega),
      max_le (Int.ceil_le.2 b3) h1, le_min (Int.le_floor.2 b4) (by omega)⟩
  have hx0 : 0 ≤ max ⌈min (min a'.x b'.x) c'.x⌉ 0 := le_max_right _ _
  have hx1 : min ⌊max (max a'.x b'.x) c'.x⌋ ((nx : Int) - 1) ≤ nx - 1 := min_le_right _ _
  have hy0 : 0 ≤ max ⌈min (min a'.y b'.y) c'.y⌉ 0 := le_max_right _ _
  have hy1 : min ⌊max (max a'.y b'.y) c'.y⌋ ((ny : Int) - 1) ≤ ny - 1 := min_le_right _ _
  generalize max ⌈min (min a'.x b'.x) c'.x⌉ 0 = x0 at *
  generalize min ⌊max (max a'.x b'.x) c'.x⌋ ((nx : Int) - 1) = x1 at *
  generalize max ⌈min (min a'.y b'.y) c'.y⌉ 0 = y0 at *
  generalize min ⌊max (max a'.y b'.y) c'.y⌋ ((ny : Int) - 1) = y1 at *
  split
  · rename_i hlt
    constructor
    · intro h; cases h
    · rintro ⟨j, i, -, h1, h2, h3, h4, h⟩
      have := hbox j i h1 h2 h3 h4 h
      omega
  split
  · rename_i hlt
    constructor
    · intro h; cases h
    · rintro ⟨j, i, -, h1, h2, h3, h4, h⟩
      have := hbox j i h1 h2 h3 h4 h
      omega
  rename_i hX hY
  have hshift : ∀ xi yi : Nat, pointInTriangle ⟨(xi : K), (yi : K)⟩ ⟨a'.x - (x0 : K), a'.y - (y0 : K)⟩
      ⟨b'.x - (x0 : K), b'.y - (y0 : K)⟩ ⟨c'.x - (x0 : K), c'.y - (y0 : K)⟩ =
      pointInTriangle ⟨(((xi : Int) + x0 : Int) : K), (((yi : Int) + y0 : Int) : K)⟩ a' b' c' := by
    intro xi yi
    have hm : ∀ q : Pt K, (⟨q.x - (x0 : K), q.y - (y0 : K)⟩ : Pt K) = moved 1 1 (-(x0 : K)) (-(y0 : K)) q := by
      intro q; simp only [moved, Pt.mk.injEq]; constructor <;> ring
    have hp : (⟨(xi : K), (yi : K)⟩ : Pt K) =
        moved 1 1 (-(x0 : K)) (-(y0 : K)) ⟨(((xi : Int) + x0 : Int) : K), (((yi : Int) + y0 : Int) : K)⟩ := by
      simp only [moved, Pt.mk.injEq]; constructor <;> push_cast <;> ring
    rw [hm, hm, hm, hp, pointInTriangle_moved _ _ _ _ one_pos one_pos]
  simp only [List.mem_map, mem_mesh, hshift]
  constructor
  · rintro ⟨_, ⟨yi, xi, hy, hx, rfl, hp⟩, rfl⟩
    exact ⟨(yi : Int) + y0, (xi : Int) + x0, rfl, by omega, by omega, by omega, by omega, hp⟩
  · rintro ⟨j, i, rfl, h1, h2, h3, h4, h⟩
    have hb := hbox j i h1 h2 h3 h4 h
    refine ⟨(num, ((j - y0).toNat : Int), ((i - x0).toNat : Int)), ⟨(j - y0).toNat, (i - x0).toNat, by omega, by omega, rfl, ?_⟩, ?_⟩
    · have e1 : (((i - x0).toNat : Nat) : Int) + x0 = i := by omega
      have e2 : (((j - y0).toNat : Nat) : Int) + y0 = j := by omega
      rw [e1, e2]; exact h
    · simp only [Prod.mk.injEq, true_and]; omega

/-- The rows for a mesh with `ny` rows of `nx` cells are exactly: the number of a triangle with the J and I index of a
cell of the mesh whose middle is in the triangle. -/
theorem C112_mesh (nx ny : Nat) {dx dy : K} (hdx : 0 < dx) (hdy : 0 < dy) (tris : List (Pt K × Pt K × Pt K)) (n : Nat)
    (j i : Int) :
    (n, j, i) ∈ pointsInTrianglesAligned nx ny dx dy tris ↔ ∃ a b c, tris[n]? = some (a, b, c) ∧
      0 ≤ j ∧ j < ny ∧ 0 ≤ i ∧ i < nx ∧ pointInPolygon (middle dx dy j i) [a, b, c] = true := by
  unfold pointsInTrianglesAligned
  simp only [List.mem_flatMap, Prod.exists, mem_aligned nx ny hdx hdy, ← C110_versions_agree]
  constructor
  · rintro ⟨a, b, c, m, hm, j', i', he, h1, h2, h3, h4, h5⟩
    cases he
    exact ⟨a, b, c, List.mem_zipIdx_iff_getElem?.1 hm, h1, h2, h3, h4, h5⟩
  · rintro ⟨a, b, c, hn, h1, h2, h3, h4, h5⟩
    exact ⟨a, b, c, n, List.mem_zipIdx_iff_getElem?.2 hn, j, i, rfl, h1, h2, h3, h4, h5⟩

theorem mesh_nodup (a b c : Pt K) (nx ny num : Nat) : (meshPointsInTriangle a b c nx ny num).Nodup := by
  unfold meshPointsInTriangle
  rw [List.nodup_flatMap]
  refine ⟨?_, ?_⟩
  · intro yi _
    refine List.Nodup.filterMap ?_ List.nodup_range
    intro x x' r h h'
    simp only [Option.mem_def] at h h'
    split at h
    · split at h'
      · cases h; cases h'; rfl
      · cases h'
    · cases h
  · refine List.nodup_range.pairwise_of_forall_ne ?_
    intro y _ y' _ hne r h h'
    simp only [List.mem_filterMap] at h h'
    obtain ⟨x, -, h⟩ := h
    obtain ⟨x', -, h'⟩ := h'
    split at h
    · split at h'
      · cases h; cases h'; exact hne rfl
      · cases h'
    · cases h

/-- No row is listed twice. -/
theorem C112_once (nx ny : Nat) {dx dy : K} (hdx : 0 < dx) (hdy : 0 < dy) (tris : List (Pt K × Pt K × Pt K)) :
    (pointsInTrianglesAligned nx ny dx dy tris).Nodup := by
  unfold pointsInTrianglesAligned
  rw [List.nodup_flatMap]
  refine ⟨?_, ?_⟩
  · rintro ⟨tri, n⟩ _
    unfold alignedTriangle
    dsimp only
    split
    · exact List.nodup_nil
    split
    · exact List.nodup_nil
    refine List.Nodup.map ?_ (mesh_nodup ..)
    rintro ⟨a1, a2, a3⟩ ⟨b1, b2, b3⟩ h
    simp only [Prod.mk.injEq] at h ⊢
    omega
  · have hp : tris.zipIdx.Pairwise fun e e' => e.2 ≠ e'.2 := by
      have := List.nodup_range (n := tris.length)
      have h2 : (tris.zipIdx.map Prod.snd).Nodup := by rw [List.zipIdx_map_snd]; exact List.nodup_range'
      rw [List.Nodup, List.pairwise_map] at h2
      exact h2
    refine hp.imp ?_
    rintro ⟨⟨a, b, c⟩, n⟩ ⟨⟨a', b', c'⟩, n'⟩ hne r h h'
    rw [mem_aligned nx ny hdx hdy] at h h'
    obtain ⟨j, i, rfl, -⟩ := h
    obtain ⟨j', i', he, -⟩ := h'
    cases he
    exact hne rfl

/-- Every cell whose middle is strictly within a triangle is listed for it, and every cell listed has its middle in the
triangle or on its boundary. -/
theorem C112_inside (nx ny : Nat) {dx dy : K} (hdx : 0 < dx) (hdy : 0 < dy) (tris : List (Pt K × Pt K × Pt K)) (n : Nat)
    (a b c : Pt K) (hn : tris[n]? = some (a, b, c)) (j i : Int) :
    (0 ≤ j → j < ny → 0 ≤ i → i < nx → StrictlyInside a b c (middle dx dy j i) →
      (n, j, i) ∈ pointsInTrianglesAligned nx ny dx dy tris) ∧
    ((n, j, i) ∈ pointsInTrianglesAligned nx ny dx dy tris → WithinClosed a b c (middle dx dy j i)) := by
  constructor
  · intro h1 h2 h3 h4 h
    exact (C112_mesh nx ny hdx hdy tris n j i).2 ⟨a, b, c, hn, h1, h2, h3, h4, (C110_triangle _ a b c).1 h⟩
  · intro h
    obtain ⟨a', b', c', hn', -, -, -, -, h5⟩ := (C112_mesh nx ny hdx hdy tris n j i).1 h
    rw [hn] at hn'
    cases hn'
    exact (C110_triangle _ a b c).2.1 h5

example : pointsInTrianglesAligned 4 3 (10 : ℚ) 10 [(⟨0, 0⟩, ⟨20, 0⟩, ⟨0, 20⟩), (⟨20, 0⟩, ⟨20, 20⟩, ⟨0, 20⟩)] =
    [(0, 0, 0), (0, 0, 1), (0, 1, 0), (1, 1, 1)] := by
  decide +kernel

end Verif.Plane
