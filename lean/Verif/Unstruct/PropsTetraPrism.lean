import Verif.Unstruct.PropsTetraVolume
import Mathlib.Data.List.Perm.Subperm

/-!
# C124: volumes of prisms and pyramids
-/

namespace Verif.Unstruct.Tetra
open Verif.Py Verif.Unstruct
open Verif.Volume (Vec tetrahedronVolume pyramidVolume dot cross sub_def)

variable {K : Type} [Field K]

/-- the triangles of the surface of a prism with top `a` and base `b`; each side is divided along one diagonal or the other -/
def prismTris (a0 a1 a2 b0 b1 b2 : Nat) (e0 e1 e2 : Bool) : List Tri :=
  [(a0, a1, a2), (b0, b1, b2)] ++
  (if e0 then [(a2, a0, b0), (a2, b0, b2)] else [(a2, a0, b2), (a0, b0, b2)]) ++
  (if e1 then [(a0, a1, b1), (a0, b1, b0)] else [(a0, a1, b0), (a1, b1, b0)]) ++
  (if e2 then [(a1, a2, b2), (a1, b2, b1)] else [(a1, a2, b1), (a2, b2, b1)])

/-- twice the area of a triangle in xy, with sign -/
def doubleArea (p q r : Vec K) : K := (q.x - p.x) * (r.y - p.y) - (r.x - p.x) * (q.y - p.y)

/-- the faces of a prism: top and base, and three others with nodes of these only -/
def PrismFaces (a0 a1 a2 b0 b1 b2 : Nat) (faces : List (List Nat)) : Prop :=
  ∃ s0 s1 s2, faces = [[a0, a1, a2], [b0, b1, b2], s0, s1, s2] ∧ ∀ n ∈ s0 ++ s1 ++ s2, n ∈ [a0, a1, a2, b0, b1, b2]

theorem edge01 (a b c : Nat) : IsEdge [a, b, c] a b := ⟨1, by simp, by simp⟩
theorem edge12 (a b c : Nat) : IsEdge [a, b, c] b c := ⟨2, by simp, by simp⟩

theorem prism_dividable {a0 a1 a2 b0 b1 b2 : Nat} {faces : List (List Nat)} (hn : [a0, a1, a2, b0, b1, b2].Nodup)
    (hf : PrismFaces a0 a1 a2 b0 b1 b2 faces) : Dividable faces := by
  obtain ⟨s0, s1, s2, rfl, hs⟩ := hf
  refine ⟨by simp, ?_, ?_⟩
  · obtain ⟨h1, h2⟩ := C119_distinct_edges [[a0, a1, a2], [b0, b1, b2], s0, s1, s2]
    have mem : ∀ {a b : Nat} {f : List Nat}, f ∈ [[a0, a1, a2], [b0, b1, b2], s0, s1, s2] → IsEdge f a b →
        (min a b, max a b) ∈ distinctEdges [[a0, a1, a2], [b0, b1, b2], s0, s1, s2] := by
      intro a b f hf he
      rw [h2]
      refine ⟨by omega, f, hf, ?_⟩
      rcases Nat.le_total a b with h | h
      · rw [Nat.min_eq_left h, Nat.max_eq_right h]; exact Or.inl he
      · rw [Nat.min_eq_right h, Nat.max_eq_left h]; exact Or.inr he
    have hnd : [(min a0 a1, max a0 a1), (min a1 a2, max a1 a2), (min b0 b1, max b0 b1), (min b1 b2, max b1 b2)].Nodup := by
      simp only [List.nodup_cons, List.mem_cons, List.not_mem_nil, or_false, not_or, List.nodup_nil, and_true, not_false_eq_true] at hn
      simp only [List.nodup_cons, List.mem_cons, List.not_mem_nil, or_false, not_or, List.nodup_nil, and_true, not_false_eq_true, Prod.mk.injEq]
      omega
    have hsub : [(min a0 a1, max a0 a1), (min a1 a2, max a1 a2), (min b0 b1, max b0 b1), (min b1 b2, max b1 b2)] ⊆
        distinctEdges [[a0, a1, a2], [b0, b1, b2], s0, s1, s2] := by
      intro x hx
      simp only [List.mem_cons, List.not_mem_nil, or_false] at hx
      rcases hx with rfl | rfl | rfl | rfl
      · exact mem (f := [a0, a1, a2]) (by simp) (edge01 _ _ _)
      · exact mem (f := [a0, a1, a2]) (by simp) (edge12 _ _ _)
      · exact mem (f := [b0, b1, b2]) (by simp) (edge01 _ _ _)
      · exact mem (f := [b0, b1, b2]) (by simp) (edge12 _ _ _)
    exact (List.Nodup.subperm hnd hsub).length_le
  · obtain ⟨l, h1, -, h3⟩ := C119_distinct_nodes [[a0, a1, a2], [b0, b1, b2], s0, s1, s2] (by simp)
    refine ⟨l, h1, ?_⟩
    have hsub : [a0, a1, a2, b0, b1, b2] ⊆ l := by
      intro x hx
      rw [h3]
      simp only [List.mem_cons, List.not_mem_nil, or_false] at hx
      rcases hx with rfl | rfl | rfl | rfl | rfl | rfl <;> simp
    have := (List.Nodup.subperm hn hsub).length_le
    simp only [List.length_cons, List.length_nil] at this
    omega

theorem prism_tris {a0 a1 a2 b0 b1 b2 : Nat} {faces : List (List Nat)} (hn : [a0, a1, a2, b0, b1, b2].Nodup)
    (hf : PrismFaces a0 a1 a2 b0 b1 b2 faces) (e0 e1 e2 : Bool) : TrianglesOf faces (prismTris a0 a1 a2 b0 b1 b2 e0 e1 e2) := by
  obtain ⟨s0, s1, s2, rfl, hs⟩ := hf
  refine ⟨by simp [prismTris], ?_⟩
  simp only [List.nodup_cons, List.mem_cons, List.not_mem_nil, or_false, not_or, List.nodup_nil, and_true, not_false_eq_true] at hn
  have mem : ∀ x, x = a0 ∨ x = a1 ∨ x = a2 ∨ x = b0 ∨ x = b1 ∨ x = b2 → ∃ f ∈ [[a0, a1, a2], [b0, b1, b2], s0, s1, s2], x ∈ f := by
    intro x hx
    rcases hx with rfl | rfl | rfl | rfl | rfl | rfl
    · exact ⟨[x, a1, a2], by simp, by simp⟩
    · exact ⟨[a0, x, a2], by simp, by simp⟩
    · exact ⟨[a0, a1, x], by simp, by simp⟩
    · exact ⟨[x, b1, b2], by simp, by simp⟩
    · exact ⟨[b0, x, b2], by simp, by simp⟩
    · exact ⟨[b0, b1, x], by simp, by simp⟩
  have ok : ∀ x y z, (x = a0 ∨ x = a1 ∨ x = a2 ∨ x = b0 ∨ x = b1 ∨ x = b2) → (y = a0 ∨ y = a1 ∨ y = a2 ∨ y = b0 ∨ y = b1 ∨ y = b2) →
      (z = a0 ∨ z = a1 ∨ z = a2 ∨ z = b0 ∨ z = b1 ∨ z = b2) → x ≠ y → y ≠ z → x ≠ z →
      (∃ f ∈ [[a0, a1, a2], [b0, b1, b2], s0, s1, s2], x ∈ f) ∧ (∃ f ∈ [[a0, a1, a2], [b0, b1, b2], s0, s1, s2], y ∈ f) ∧
      (∃ f ∈ [[a0, a1, a2], [b0, b1, b2], s0, s1, s2], z ∈ f) ∧ x ≠ y ∧ y ≠ z ∧ x ≠ z :=
    fun x y z h1 h2 h3 h4 h5 h6 => ⟨mem x h1, mem y h2, mem z h3, h4, h5, h6⟩
  obtain ⟨⟨n1, n2, n3, n4, n5⟩, ⟨n6, n7, n8, n9⟩, ⟨n10, n11, n12⟩, ⟨n13, n14⟩, n15⟩ := hn
  unfold prismTris
  intro t ht
  rw [List.mem_append, List.mem_append, List.mem_append] at ht
  rcases ht with ((ht | ht) | ht) | ht
  · simp only [List.mem_cons, List.not_mem_nil, or_false] at ht
    rcases ht with rfl | rfl
    · exact ok _ _ _ (by simp) (by simp) (by simp) (by dsimp only; omega) (by dsimp only; omega) (by dsimp only; omega)
    · exact ok _ _ _ (by simp) (by simp) (by simp) (by dsimp only; omega) (by dsimp only; omega) (by dsimp only; omega)
  · cases e0 <;> simp only [Bool.false_eq_true, if_true, if_false, List.mem_cons, List.not_mem_nil, or_false] at ht <;> rcases ht with rfl | rfl <;>
      exact ok _ _ _ (by simp) (by simp) (by simp) (by dsimp only; omega) (by dsimp only; omega) (by dsimp only; omega)
  · cases e1 <;> simp only [Bool.false_eq_true, if_true, if_false, List.mem_cons, List.not_mem_nil, or_false] at ht <;> rcases ht with rfl | rfl <;>
      exact ok _ _ _ (by simp) (by simp) (by simp) (by dsimp only; omega) (by dsimp only; omega) (by dsimp only; omega)
  · cases e2 <;> simp only [Bool.false_eq_true, if_true, if_false, List.mem_cons, List.not_mem_nil, or_false] at ht <;> rcases ht with rfl | rfl <;>
      exact ok _ _ _ (by simp) (by simp) (by simp) (by dsimp only; omega) (by dsimp only; omega) (by dsimp only; omega)

variable [LinearOrder K] [IsStrictOrderedRing K]

/-- the centre of a prism: the mean of its corners -/
def prismCentre (points : Nat → Vec K) (a0 a1 a2 b0 b1 b2 : Nat) : Vec K := mean ([a0, a1, a2, b0, b1, b2].map points)

theorem abs_scaled (d v x : K) (h0 : 0 ≤ v) (h : x = d * v ∨ x = -(d * v)) : |x| = |d| * v := by
  rcases h with rfl | rfl
  · rw [abs_mul, abs_of_nonneg h0]
  · rw [abs_neg, abs_mul, abs_of_nonneg h0]

/-- **C124** the volume of a vertical prism: the area of its triangle in xy times its mean thickness, along whichever diagonals its sides are
divided and whichever way round the triangles are taken -/
theorem C124_prism (points : Nat → Vec K) (a0 a1 a2 b0 b1 b2 : Nat) (hn : [a0, a1, a2, b0, b1, b2].Nodup) (faces : List (List Nat))
    (hf : PrismFaces a0 a1 a2 b0 b1 b2 faces) (e0 e1 e2 : Bool) (tris : List Tri)
    (ht : List.Forall₂ SameCorners tris (prismTris a0 a1 a2 b0 b1 b2 e0 e1 e2)) (htr : TrianglesOf faces tris)
    (hx : (points b0).x = (points a0).x ∧ (points b1).x = (points a1).x ∧ (points b2).x = (points a2).x)
    (hy : (points b0).y = (points a0).y ∧ (points b1).y = (points a1).y ∧ (points b2).y = (points a2).y)
    (hz : (points a0).z ≤ (points b0).z ∧ (points a1).z ≤ (points b1).z ∧ (points a2).z ≤ (points b2).z) :
    cellVolume points faces tris (prismCentre points a0 a1 a2 b0 b1 b2) =
      .ok (|doubleArea (points a0) (points a1) (points a2)| / 2 *
        ((((points b0).z - (points a0).z) + ((points b1).z - (points a1).z) + ((points b2).z - (points a2).z)) / 3)) := by
  obtain ⟨h1, h2, nodes, h3, h4⟩ := prism_dividable hn hf
  rw [C124_volume points faces tris _ nodes h3 h4 h1 h2 htr, volume_oriented points _ ht]
  congr 1
  have hm : prismCentre points a0 a1 a2 b0 b1 b2 =
      ⟨((points a0).x + (points a1).x + (points a2).x) / 3, ((points a0).y + (points a1).y + (points a2).y) / 3,
       ((points a0).z + (points a1).z + (points a2).z + (points b0).z + (points b1).z + (points b2).z) / 6⟩ := by
    simp only [prismCentre, mean, List.map_cons, List.map_nil, List.sum_cons, List.sum_nil, List.length_cons, List.length_nil, hx, hy]
    ext
    · push_cast; ring
    · push_cast; ring
    · push_cast; ring
  rw [hm]
  obtain ⟨hx0, hx1, hx2⟩ := hx
  obtain ⟨hy0, hy1, hy2⟩ := hy
  obtain ⟨hz0, hz1, hz2⟩ := hz
  generalize hA0 : points a0 = A0 at *
  generalize hA1 : points a1 = A1 at *
  generalize hA2 : points a2 = A2 at *
  generalize hB0 : points b0 = B0 at *
  generalize hB1 : points b1 = B1 at *
  generalize hB2 : points b2 = B2 at *
  obtain ⟨x0, y0, z0⟩ := A0
  obtain ⟨x1, y1, z1⟩ := A1
  obtain ⟨x2, y2, z2⟩ := A2
  obtain ⟨u0, v0, w0⟩ := B0
  obtain ⟨u1, v1, w1⟩ := B1
  obtain ⟨u2, v2, w2⟩ := B2
  simp only at hx0 hx1 hx2 hy0 hy1 hy2 hz0 hz1 hz2 ⊢
  subst hx0 hx1 hx2 hy0 hy1 hy2
  have t0 : 0 ≤ w0 - z0 := by linarith
  have t1 : 0 ≤ w1 - z1 := by linarith
  have t2 : 0 ≤ w2 - z2 := by linarith
  -- the eight pieces
  have side : ∀ (p : Tri) (v : K), 0 ≤ v → (six points ⟨(u0 + u1 + u2) / 3, (v0 + v1 + v2) / 3, (z0 + z1 + z2 + w0 + w1 + w2) / 6⟩ p =
      doubleArea (⟨u0, v0, z0⟩ : Vec K) ⟨u1, v1, z1⟩ ⟨u2, v2, z2⟩ * v ∨
      six points ⟨(u0 + u1 + u2) / 3, (v0 + v1 + v2) / 3, (z0 + z1 + z2 + w0 + w1 + w2) / 6⟩ p =
      -(doubleArea (⟨u0, v0, z0⟩ : Vec K) ⟨u1, v1, z1⟩ ⟨u2, v2, z2⟩ * v)) →
      |six points ⟨(u0 + u1 + u2) / 3, (v0 + v1 + v2) / 3, (z0 + z1 + z2 + w0 + w1 + w2) / 6⟩ p| =
        |doubleArea (⟨u0, v0, z0⟩ : Vec K) ⟨u1, v1, z1⟩ ⟨u2, v2, z2⟩| * v := fun p v h0 h => abs_scaled _ _ _ h0 h
  have top := side (a0, a1, a2) ((w0 - z0 + (w1 - z1) + (w2 - z2)) / 6) (by linarith) (by
    simp only [six, hA0, hA1, hA2, dot, cross, sub_def, doubleArea]
    first
      | (left; ring; done)
      | (right; ring; done))
  have base := side (b0, b1, b2) ((w0 - z0 + (w1 - z1) + (w2 - z2)) / 6) (by linarith) (by
    simp only [six, hB0, hB1, hB2, dot, cross, sub_def, doubleArea]
    first
      | (left; ring; done)
      | (right; ring; done))
  have s0 : ((if e0 then [(a2, a0, b0), (a2, b0, b2)] else [(a2, a0, b2), (a0, b0, b2)]).map
      fun u => |six points ⟨(u0 + u1 + u2) / 3, (v0 + v1 + v2) / 3, (z0 + z1 + z2 + w0 + w1 + w2) / 6⟩ u| / 6).sum =
      |doubleArea (⟨u0, v0, z0⟩ : Vec K) ⟨u1, v1, z1⟩ ⟨u2, v2, z2⟩| * ((w0 - z0) / 3 + (w2 - z2) / 3) / 6 := by
    cases e0
    · rw [if_neg (by simp), List.map_cons, List.map_cons, List.map_nil, List.sum_cons, List.sum_cons, List.sum_nil,
        side (a2, a0, b2) ((w2 - z2) / 3) (by linarith) (by
          simp only [six, hA0, hA2, hB2, dot, cross, sub_def, doubleArea]
          first
            | (left; ring; done)
            | (right; ring; done)),
        side (a0, b0, b2) ((w0 - z0) / 3) (by linarith) (by
          simp only [six, hA0, hB0, hB2, dot, cross, sub_def, doubleArea]
          first
            | (left; ring; done)
            | (right; ring; done))]
      ring
    · rw [if_pos rfl, List.map_cons, List.map_cons, List.map_nil, List.sum_cons, List.sum_cons, List.sum_nil,
        side (a2, a0, b0) ((w0 - z0) / 3) (by linarith) (by
          simp only [six, hA0, hA2, hB0, dot, cross, sub_def, doubleArea]
          first
            | (left; ring; done)
            | (right; ring; done)),
        side (a2, b0, b2) ((w2 - z2) / 3) (by linarith) (by
          simp only [six, hA2, hB0, hB2, dot, cross, sub_def, doubleArea]
          first
            | (left; ring; done)
            | (right; ring; done))]
      ring
  have s1 : ((if e1 then [(a0, a1, b1), (a0, b1, b0)] else [(a0, a1, b0), (a1, b1, b0)]).map
      fun u => |six points ⟨(u0 + u1 + u2) / 3, (v0 + v1 + v2) / 3, (z0 + z1 + z2 + w0 + w1 + w2) / 6⟩ u| / 6).sum =
      |doubleArea (⟨u0, v0, z0⟩ : Vec K) ⟨u1, v1, z1⟩ ⟨u2, v2, z2⟩| * ((w1 - z1) / 3 + (w0 - z0) / 3) / 6 := by
    cases e1
    · rw [if_neg (by simp), List.map_cons, List.map_cons, List.map_nil, List.sum_cons, List.sum_cons, List.sum_nil,
        side (a0, a1, b0) ((w0 - z0) / 3) (by linarith) (by
          simp only [six, hA0, hA1, hB0, dot, cross, sub_def, doubleArea]
          first
            | (left; ring; done)
            | (right; ring; done)),
        side (a1, b1, b0) ((w1 - z1) / 3) (by linarith) (by
          simp only [six, hA1, hB1, hB0, dot, cross, sub_def, doubleArea]
          first
            | (left; ring; done)
            | (right; ring; done))]
      ring
    · rw [if_pos rfl, List.map_cons, List.map_cons, List.map_nil, List.sum_cons, List.sum_cons, List.sum_nil,
        side (a0, a1, b1) ((w1 - z1) / 3) (by linarith) (by
          simp only [six, hA0, hA1, hB1, dot, cross, sub_def, doubleArea]
          first
            | (left; ring; done)
            | (right; ring; done)),
        side (a0, b1, b0) ((w0 - z0) / 3) (by linarith) (by
          simp only [six, hA0, hB0, hB1, dot, cross, sub_def, doubleArea]
          first
            | (left; ring; done)
            | (right; ring; done))]
      ring
  have s2 : ((if e2 then [(a1, a2, b2), (a1, b2, b1)] else [(a1, a2, b1), (a2, b2, b1)]).map
      fun u => |six points ⟨(u0 + u1 + u2) / 3, (v0 + v1 + v2) / 3, (z0 + z1 + z2 + w0 + w1 + w2) / 6⟩ u| / 6).sum =
      |doubleArea (⟨u0, v0, z0⟩ : Vec K) ⟨u1, v1, z1⟩ ⟨u2, v2, z2⟩| * ((w2 - z2) / 3 + (w1 - z1) / 3) / 6 := by
    cases e2
    · rw [if_neg (by simp), List.map_cons, List.map_cons, List.map_nil, List.sum_cons, List.sum_cons, List.sum_nil,
        side (a1, a2, b1) ((w1 - z1) / 3) (by linarith) (by
          simp only [six, hA1, hA2, hB1, dot, cross, sub_def, doubleArea]
          first
            | (left; ring; done)
            | (right; ring; done)),
        side (a2, b2, b1) ((w2 - z2) / 3) (by linarith) (by
          simp only [six, hA2, hB2, hB1, dot, cross, sub_def, doubleArea]
          first
            | (left; ring; done)
            | (right; ring; done))]
      ring
    · rw [if_pos rfl, List.map_cons, List.map_cons, List.map_nil, List.sum_cons, List.sum_cons, List.sum_nil,
        side (a1, a2, b2) ((w2 - z2) / 3) (by linarith) (by
          simp only [six, hA1, hA2, hB2, dot, cross, sub_def, doubleArea]
          first
            | (left; ring; done)
            | (right; ring; done)),
        side (a1, b2, b1) ((w1 - z1) / 3) (by linarith) (by
          simp only [six, hA1, hB2, hB1, dot, cross, sub_def, doubleArea]
          first
            | (left; ring; done)
            | (right; ring; done))]
      ring
  unfold prismTris
  rw [List.map_append, List.map_append, List.map_append, List.sum_append, List.sum_append, List.sum_append, s0, s1, s2]
  simp only [List.map_cons, List.map_nil, List.sum_cons, List.sum_nil]
  rw [top, base]
  ring

omit [LinearOrder K] [IsStrictOrderedRing K] in
/-- **C124** the centre of a prism is the mean of its corners, whether it is taken as such or as the mean of the means of the five faces -/
theorem C124_prism_centre [CharZero K] (points : Nat → Vec K) (a0 a1 a2 b0 b1 b2 : Nat) :
    cellCentre points [[a0, a1, a2], [b0, b1, b2], [a2, a0, b0, b2], [a0, a1, b1, b0], [a1, a2, b2, b1]] =
      mean ([a0, a1, a2, b0, b1, b2].map points) := by
  simp only [cellCentre, mean, List.map_cons, List.map_nil, List.sum_cons, List.sum_nil, List.length_cons, List.length_nil]
  ext
  · push_cast; field_simp; ring
  · push_cast; field_simp; ring
  · push_cast; field_simp; ring

/-! ## pyramids -/

theorem apexNode_ok {base : List Nat} {e : Nat} : ∀ {nodes : List Nat}, e ∈ nodes → (∀ n ∈ nodes, n ∉ base → n = e) → e ∉ base →
    apexNode base nodes = .ok e
  | [], h, _, _ => by simp at h
  | n :: ns, h, hu, he => by
    unfold apexNode
    split_ifs with hb
    · refine apexNode_ok ?_ (fun m hm => hu m (by simp [hm])) he
      rcases List.mem_cons.mp h with rfl | h
      · exact absurd hb he
      · exact h
    · rw [hu n (by simp) hb]

omit [LinearOrder K] [IsStrictOrderedRing K] in
/-- **C124** the volume of a pyramid is taken with the node which is not on the base as apex, whatever the numbers of the nodes; with the wrong
handedness stored it changes sign -/
theorem C124_pyramid (points : Nat → Vec K) (a b c d e : Nat) (he : e ∉ [a, b, c, d]) (rest : List (List Nat)) (hr : rest ≠ [])
    (hn : ∀ f ∈ rest, ∀ n ∈ f, n ∈ [a, b, c, d, e]) (hm : ∃ f ∈ rest, e ∈ f) (rh hand : Bool) :
    pyramidCellVolume points ([a, b, c, d] :: rest) rh hand =
      .ok (if rh = hand then pyramidVolume (points e) (points a) (points b) (points c) (points d) true
        else -pyramidVolume (points e) (points a) (points b) (points c) (points d) true) := by
  obtain ⟨l, h1, -, h3⟩ := C119_distinct_nodes ([a, b, c, d] :: rest) (by
    rw [List.length_cons]
    have := List.length_pos_iff.mpr hr
    omega)
  have hap : apexNode [a, b, c, d] l = .ok e := by
    refine apexNode_ok ?_ ?_ he
    · rw [h3]
      obtain ⟨f, hf, hef⟩ := hm
      exact ⟨f, by simp [hf], hef⟩
    · intro n hnl hnb
      obtain ⟨f, hf, hnf⟩ := (h3 n).mp hnl
      rcases List.mem_cons.mp hf with rfl | hf
      · exact absurd hnf hnb
      · have := hn f hf n hnf
        simp only [List.mem_cons, List.not_mem_nil, or_false, not_or] at this hnb
        tauto
  unfold pyramidCellVolume
  rw [h1, res_bind]
  simp only
  rw [hap, res_bind]
  cases rh <;> cases hand <;> rfl

/-! ## cases -/

example : [10, 11, 12, 20, 21, 22].Nodup ∧ PrismFaces 10 11 12 20 21 22 [[10, 11, 12], [20, 21, 22], [10, 12, 22, 20], [10, 11, 21, 20], [11, 12, 22, 21]] :=
  ⟨by decide, [10, 12, 22, 20], [10, 11, 21, 20], [11, 12, 22, 21], rfl, by decide⟩

/-- the corners of a prism over the triangle (0, 0), (4, 0), (0, 3): thickness 1, 2 and 3 -/
def wedge (n : Nat) : Vec ℚ :=
  match n with
  | 0 => ⟨0, 0, 10⟩
  | 1 => ⟨4, 0, 11⟩
  | 2 => ⟨0, 3, 12⟩
  | 3 => ⟨0, 0, 11⟩
  | 4 => ⟨4, 0, 13⟩
  | _ => ⟨0, 3, 15⟩

example : cellVolume wedge [[0, 1, 2], [3, 4, 5], [0, 2, 5, 3], [0, 1, 4, 3], [1, 2, 5, 4]]
    (prismTris 0 1 2 3 4 5 true false true) (prismCentre wedge 0 1 2 3 4 5) = .ok 12 := by
  have hf : PrismFaces 0 1 2 3 4 5 [[0, 1, 2], [3, 4, 5], [0, 2, 5, 3], [0, 1, 4, 3], [1, 2, 5, 4]] :=
    ⟨[0, 2, 5, 3], [0, 1, 4, 3], [1, 2, 5, 4], rfl, by decide⟩
  rw [C124_prism wedge 0 1 2 3 4 5 (by decide) _ hf true false true _ (List.forall₂_same.mpr fun t _ => List.Perm.refl _)
    (prism_tris (by decide) hf true false true) ⟨rfl, rfl, rfl⟩ ⟨rfl, rfl, rfl⟩ (by norm_num [wedge])]
  congr 1
  norm_num [wedge, doubleArea]

/-- a pyramid of height 3 on a square with sides 2 -/
def tentPoints (n : Nat) : Vec ℚ :=
  match n with
  | 0 => ⟨0, 0, 0⟩
  | 1 => ⟨2, 0, 0⟩
  | 2 => ⟨2, 2, 0⟩
  | 3 => ⟨0, 2, 0⟩
  | _ => ⟨1, 1, 3⟩

/-- its triangles, the base divided -/
def tentTris : List Tri := [(0, 2, 1), (0, 3, 2), (0, 1, 4), (1, 2, 4), (2, 3, 4), (3, 0, 4)]

theorem tent_closed : Closed tentTris := by
  intro a b
  by_cases h : a ≤ 4 ∧ b ≤ 4
  · obtain ⟨h1, h2⟩ := h
    interval_cases a <;> interval_cases b <;> rfl
  · have key : ∀ x y, (5 ≤ x ∨ 5 ≤ y) → (directed tentTris).count (x, y) = 0 := by
      intro x y hxy
      rw [List.count_eq_zero]
      intro hm
      have : ∀ d ∈ directed tentTris, d.1 ≤ 4 ∧ d.2 ≤ 4 := by decide
      have := this _ hm
      simp only at this
      omega
    rw [key a b (by omega), key b a (by omega)]

example : cellVolume tentPoints [[0, 1, 2, 3], [0, 1, 4], [1, 2, 4], [2, 3, 4], [3, 0, 4]] tentTris
    (cellCentre tentPoints [[0, 1, 2, 3], [0, 1, 4], [1, 2, 4], [2, 3, 4], [3, 0, 4]]) = .ok 4 := by
  rw [C124_enclosed_volume_partial tentPoints _ tentTris tentTris _ ⟨0, 0, 0⟩ ⟨by decide, by decide, [0, 1, 2, 3, 4], by decide, by decide⟩
    ⟨by decide, by decide⟩ (List.forall₂_same.mpr fun t _ => List.Perm.refl _) tent_closed (by decide +kernel)]
  congr 1
  decide +kernel

example : pyramidCellVolume tentPoints [[0, 1, 2, 3], [0, 1, 4], [1, 2, 4], [2, 3, 4], [3, 0, 4]] true true =
    .ok (pyramidVolume (tentPoints 4) (tentPoints 0) (tentPoints 1) (tentPoints 2) (tentPoints 3) true) := by
  rw [C124_pyramid tentPoints 0 1 2 3 4 (by decide) _ (by decide) (by decide) (by decide), if_pos rfl]

end Verif.Unstruct.Tetra
