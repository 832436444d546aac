import Verif.Surface.Lemmas
import Mathlib.Tactic.Linarith
import Mathlib.Tactic.LinearCombination
import Mathlib.Algebra.Order.Ring.Rat
import Mathlib.Algebra.Field.Rat

namespace Verif.Surface
open Verif.Py Spec

variable {P : Type}

/-- **C141** A surface made from an untorn mesh of points has the right number of triangles, each quadrangle of the mesh is
represented by its two (or four) triangles, and the column found for the number of each triangle is that of its quadrangle. -/
theorem C141_irregular_mesh (mean : P → P → P → P → P) (nj ni : Nat) (mesh : Nat → Nat → P) (four : Bool) (hj : 1 < nj) (hi : 1 < ni) :
    ∃ p, fromIrregularMesh mean nj ni mesh four = .ok p ∧ p.tris.length = perQuad four * ((nj - 1) * (ni - 1)) ∧
      (∀ j i, j < nj → i < ni → p.points[j * ni + i]? = some (mesh j i)) ∧
      p.points.length = nj * ni + (if four then (nj - 1) * (ni - 1) else 0) ∧
      (∀ j i k, j < nj - 1 → i < ni - 1 → k < perQuad four →
        ∃ n t, n < p.tris.length ∧ columnFromTriangleIndex p n = some ((j : Int), (i : Int)) ∧ n = (j * (ni - 1) + i) * perQuad four + k ∧
          p.tris[n]? = some t ∧
          cornersN p.points t = (quadTriangles four (mean (mesh j i) (mesh j (i + 1)) (mesh (j + 1) i) (mesh (j + 1) (i + 1)))
            (mesh j i) (mesh j (i + 1)) (mesh (j + 1) i) (mesh (j + 1) (i + 1)))[k]?) ∧
      ∀ n : Int, p.tris.length ≤ n → columnFromTriangleIndex p n = none := by
  obtain ⟨hm1, hm2⟩ := flatMesh_get nj ni mesh
  have bnd : ∀ j i, j < nj → i < ni → j * ni + i < nj * ni := by
    intro j i h1 h2
    have : (j + 1) * ni ≤ nj * ni := Nat.mul_le_mul_right ni (by omega)
    have e : (j + 1) * ni = j * ni + ni := by ring
    omega
  cases four with
  | true =>
    obtain ⟨hc1, hc2⟩ := flatMesh_get (nj - 1) (ni - 1)
      (fun j i => mean (mesh j i) (mesh j (i + 1)) (mesh (j + 1) i) (mesh (j + 1) (i + 1)))
    obtain ⟨ht1, ht2⟩ := getElem_nested (nj - 1) (ni - 1) 4 (fun j i =>
      fourTris (nj * ni + j * (ni - 1) + i) (j * ni + i) (j * ni + i + 1) ((j + 1) * ni + i) ((j + 1) * ni + i + 1))
      (fun _ _ _ _ => rfl)
    refine ⟨_, by unfold fromIrregularMesh; rw [if_pos ⟨hj, hi⟩]; rfl, ?_, ?_, ?_, ?_, ?_⟩
    · dsimp only
      rw [ht1]
      simp only [perQuad, if_true]
      ring
    · intro j i h1 h2
      dsimp only
      rw [List.getElem?_append_left (by rw [hm1]; exact bnd j i h1 h2)]
      exact hm2 j i h1 h2
    · dsimp only
      rw [List.length_append, hm1, hc1]
      simp
    · intro j i k h1 h2 hk
      simp only [perQuad, if_true] at hk
      have hn : (j * (ni - 1) + i) * 4 + k < (nj - 1) * (ni - 1) * 4 := by
        have e1 : (j + 1) * (ni - 1) ≤ (nj - 1) * (ni - 1) := Nat.mul_le_mul_right _ (by omega)
        have e2 : (j + 1) * (ni - 1) = j * (ni - 1) + (ni - 1) := by ring
        omega
      have hnode : ∀ a b, a < nj → b < ni → (flatMesh nj ni mesh ++ flatMesh (nj - 1) (ni - 1)
          (fun j i => mean (mesh j i) (mesh j (i + 1)) (mesh (j + 1) i) (mesh (j + 1) (i + 1))))[a * ni + b]? = some (mesh a b) := by
        intro a b h1 h2
        rw [List.getElem?_append_left (by rw [hm1]; exact bnd a b h1 h2)]
        exact hm2 a b h1 h2
      have hcen : (flatMesh nj ni mesh ++ flatMesh (nj - 1) (ni - 1)
          (fun j i => mean (mesh j i) (mesh j (i + 1)) (mesh (j + 1) i) (mesh (j + 1) (i + 1))))[nj * ni + j * (ni - 1) + i]? =
          some (mean (mesh j i) (mesh j (i + 1)) (mesh (j + 1) i) (mesh (j + 1) (i + 1))) := by
        rw [List.getElem?_append_right (by rw [hm1]; omega), hm1,
          show nj * ni + j * (ni - 1) + i - nj * ni = j * (ni - 1) + i by omega]
        exact hc2 j i h1 h2
      obtain ⟨t, e1, e2, _⟩ := lookup_of_map (four_corners hcen (hnode j i (by omega) (by omega))
        (hnode j (i + 1) (by omega) (by omega)) (hnode (j + 1) i (by omega) (by omega))
        (hnode (j + 1) (i + 1) (by omega) (by omega))) k (by exact hk)
      refine ⟨(j * (ni - 1) + i) * 4 + k, t, by dsimp only; omega, ?_, rfl, ?_, e2⟩
      · unfold columnFromTriangleIndex
        dsimp only
        rw [if_neg (by rw [ht1]; omega), if_pos rfl]
        obtain ⟨d1, d2⟩ := col_div j i k (ni - 1) 4 h2 hk
        simp only [Option.some.injEq, Prod.mk.injEq]
        exact ⟨d1, d2⟩
      · dsimp only
        rw [ht2 j i k h1 h2 hk]
        exact e1
    · intro n hn
      unfold columnFromTriangleIndex
      dsimp only
      rw [if_pos hn]
  | false =>
    obtain ⟨ht1, ht2⟩ := getElem_nested (nj - 1) (ni - 1) 2 (fun j i =>
      twoTris (j * ni + i) (j * ni + i + 1) ((j + 1) * ni + i) ((j + 1) * ni + i + 1))
      (fun _ _ _ _ => rfl)
    refine ⟨_, by unfold fromIrregularMesh; rw [if_pos ⟨hj, hi⟩]; rfl, ?_, ?_, ?_, ?_, ?_⟩
    · dsimp only
      rw [ht1]
      simp only [perQuad, Bool.false_eq_true, if_false]
      ring
    · exact hm2
    · dsimp only
      rw [hm1]
      simp
    · intro j i k h1 h2 hk
      simp only [perQuad, Bool.false_eq_true, if_false] at hk
      have hn : (j * (ni - 1) + i) * 2 + k < (nj - 1) * (ni - 1) * 2 := by
        have e1 : (j + 1) * (ni - 1) ≤ (nj - 1) * (ni - 1) := Nat.mul_le_mul_right _ (by omega)
        have e2 : (j + 1) * (ni - 1) = j * (ni - 1) + (ni - 1) := by ring
        omega
      obtain ⟨t, e1, e2, _⟩ := lookup_of_map (two_corners
        (e := mean (mesh j i) (mesh j (i + 1)) (mesh (j + 1) i) (mesh (j + 1) (i + 1))) (hm2 j i (by omega) (by omega))
        (hm2 j (i + 1) (by omega) (by omega)) (hm2 (j + 1) i (by omega) (by omega))
        (hm2 (j + 1) (i + 1) (by omega) (by omega))) k (by exact hk)
      refine ⟨(j * (ni - 1) + i) * 2 + k, t, by dsimp only; omega, ?_, rfl, ?_, e2⟩
      · unfold columnFromTriangleIndex
        dsimp only
        rw [if_neg (by rw [ht1]; omega), if_neg (by simp)]
        obtain ⟨d1, d2⟩ := col_div j i k (ni - 1) 2 h2 hk
        simp only [Option.some.injEq, Prod.mk.injEq]
        exact ⟨d1, d2⟩
      · dsimp only
        rw [ht2 j i k h1 h2 hk]
        exact e1
    · intro n hn
      unfold columnFromTriangleIndex
      dsimp only
      rw [if_pos hn]

example : (1 : Nat) < 3 ∧ 1 < 4 := by decide

/-- **C141** A mesh with fewer than two rows or columns of nodes is refused. -/
theorem C141_irregular_mesh_refused (mean : P → P → P → P → P) (nj ni : Nat) (mesh : Nat → Nat → P) (four : Bool)
    (h : nj ≤ 1 ∨ ni ≤ 1) : fromIrregularMesh mean nj ni mesh four = .error .assertion := by
  unfold fromIrregularMesh
  rw [if_neg (by omega)]

example : (1 : Nat) ≤ 1 ∨ 5 ≤ 1 := by decide

theorem torn_get (nj ni : Nat) (mesh : Nat → Nat → Nat → Nat → P) :
    ((List.range nj).flatMap fun j => (List.range ni).flatMap fun i =>
      [mesh j i 0 0, mesh j i 0 1, mesh j i 1 0, mesh j i 1 1]).length = nj * ni * 4 ∧
    ∀ j i jp ip, j < nj → i < ni → jp < 2 → ip < 2 → ((List.range nj).flatMap fun j => (List.range ni).flatMap fun i =>
      [mesh j i 0 0, mesh j i 0 1, mesh j i 1 0, mesh j i 1 1])[4 * (j * ni + i) + (2 * jp + ip)]? = some (mesh j i jp ip) := by
  obtain ⟨h1, h2⟩ := getElem_nested nj ni 4 (fun j i => [mesh j i 0 0, mesh j i 0 1, mesh j i 1 0, mesh j i 1 1])
    (fun _ _ _ _ => rfl)
  refine ⟨h1, fun j i jp ip hj hi hjp hip => ?_⟩
  rw [Nat.mul_comm 4, h2 j i (2 * jp + ip) hj hi (by omega)]
  interval_cases jp <;> interval_cases ip <;> rfl

/-- **C141** The same for a torn mesh, in which every quadrangle has four corners of its own. -/
theorem C141_torn_mesh (mean : P → P → P → P → P) (nj ni : Nat) (mesh : Nat → Nat → Nat → Nat → P) (four : Bool) (hj : 0 < nj)
    (hi : 0 < ni) :
    ∃ p, fromTornMesh mean nj ni mesh four = .ok p ∧ p.tris.length = perQuad four * (nj * ni) ∧
      p.points.length = (if four then 5 else 4) * (nj * ni) ∧
      (∀ j i k, j < nj → i < ni → k < perQuad four →
        ∃ n t, n < p.tris.length ∧ columnFromTriangleIndex p n = some ((j : Int), (i : Int)) ∧ n = (j * ni + i) * perQuad four + k ∧
          p.tris[n]? = some t ∧
          cornersN p.points t = (quadTriangles four (mean (mesh j i 0 0) (mesh j i 0 1) (mesh j i 1 0) (mesh j i 1 1))
            (mesh j i 0 0) (mesh j i 0 1) (mesh j i 1 0) (mesh j i 1 1))[k]?) ∧
      ∀ n : Int, p.tris.length ≤ n → columnFromTriangleIndex p n = none := by
  obtain ⟨hm1, hm2⟩ := torn_get nj ni mesh
  have bnd : ∀ j i, j < nj → i < ni → j * ni + i < nj * ni := by
    intro j i h1 h2
    have : (j + 1) * ni ≤ nj * ni := Nat.mul_le_mul_right ni (by omega)
    have e : (j + 1) * ni = j * ni + ni := by ring
    omega
  cases four with
  | true =>
    obtain ⟨hc1, hc2⟩ := flatMesh_get nj ni
      (fun j i => mean (mesh j i 0 0) (mesh j i 0 1) (mesh j i 1 0) (mesh j i 1 1))
    obtain ⟨ht1, ht2⟩ := getElem_nested nj ni 4 (fun j i =>
      fourTris (nj * ni * 4 + j * ni + i) (4 * (j * ni + i)) (4 * (j * ni + i) + 1) (4 * (j * ni + i) + 2) (4 * (j * ni + i) + 3))
      (fun _ _ _ _ => rfl)
    refine ⟨_, by unfold fromTornMesh; rw [if_pos ⟨hj, hi⟩]; rfl, ?_, ?_, ?_, ?_⟩
    · dsimp only
      rw [ht1]
      simp only [perQuad, if_true]
      ring
    · dsimp only
      rw [List.length_append, hm1, hc1]
      simp only [if_true]
      ring
    · intro j i k h1 h2 hk
      simp only [perQuad, if_true] at hk
      have hb := bnd j i h1 h2
      have hnode : ∀ jp ip, jp < 2 → ip < 2 → (((List.range nj).flatMap fun j => (List.range ni).flatMap fun i =>
          [mesh j i 0 0, mesh j i 0 1, mesh j i 1 0, mesh j i 1 1]) ++ flatMesh nj ni
          (fun j i => mean (mesh j i 0 0) (mesh j i 0 1) (mesh j i 1 0) (mesh j i 1 1)))[4 * (j * ni + i) + (2 * jp + ip)]? =
          some (mesh j i jp ip) := by
        intro jp ip hjp hip
        rw [List.getElem?_append_left (by rw [hm1]; omega)]
        exact hm2 j i jp ip h1 h2 hjp hip
      have hcen : (((List.range nj).flatMap fun j => (List.range ni).flatMap fun i =>
          [mesh j i 0 0, mesh j i 0 1, mesh j i 1 0, mesh j i 1 1]) ++ flatMesh nj ni
          (fun j i => mean (mesh j i 0 0) (mesh j i 0 1) (mesh j i 1 0) (mesh j i 1 1)))[nj * ni * 4 + j * ni + i]? =
          some (mean (mesh j i 0 0) (mesh j i 0 1) (mesh j i 1 0) (mesh j i 1 1)) := by
        rw [List.getElem?_append_right (by rw [hm1]; omega), hm1,
          show nj * ni * 4 + j * ni + i - nj * ni * 4 = j * ni + i by omega]
        exact hc2 j i h1 h2
      obtain ⟨t, e1, e2, _⟩ := lookup_of_map (four_corners hcen (hnode 0 0 (by omega) (by omega))
        (hnode 0 1 (by omega) (by omega)) (hnode 1 0 (by omega) (by omega)) (hnode 1 1 (by omega) (by omega))) k (by exact hk)
      refine ⟨(j * ni + i) * 4 + k, t, by dsimp only; omega, ?_, rfl, ?_, e2⟩
      · unfold columnFromTriangleIndex
        dsimp only
        rw [if_neg (by rw [ht1]; omega), if_pos rfl]
        obtain ⟨d1, d2⟩ := col_div j i k ni 4 h2 hk
        simp only [Option.some.injEq, Prod.mk.injEq]
        exact ⟨d1, d2⟩
      · dsimp only
        rw [ht2 j i k h1 h2 hk]
        exact e1
    · intro n hn
      unfold columnFromTriangleIndex
      dsimp only
      rw [if_pos hn]
  | false =>
    obtain ⟨ht1, ht2⟩ := getElem_nested nj ni 2 (fun j i =>
      twoTris (4 * (j * ni + i)) (4 * (j * ni + i) + 1) (4 * (j * ni + i) + 2) (4 * (j * ni + i) + 3))
      (fun _ _ _ _ => rfl)
    refine ⟨_, by unfold fromTornMesh; rw [if_pos ⟨hj, hi⟩]; rfl, ?_, ?_, ?_, ?_⟩
    · dsimp only
      rw [ht1]
      simp only [perQuad, Bool.false_eq_true, if_false]
      ring
    · dsimp only
      rw [hm1]
      simp only [Bool.false_eq_true, if_false]
      ring
    · intro j i k h1 h2 hk
      simp only [perQuad, Bool.false_eq_true, if_false] at hk
      have hb := bnd j i h1 h2
      have hnode := fun jp ip hjp hip => hm2 j i jp ip h1 h2 hjp hip
      obtain ⟨t, e1, e2, _⟩ := lookup_of_map (two_corners
        (e := mean (mesh j i 0 0) (mesh j i 0 1) (mesh j i 1 0) (mesh j i 1 1)) (hnode 0 0 (by omega) (by omega))
        (hnode 0 1 (by omega) (by omega)) (hnode 1 0 (by omega) (by omega)) (hnode 1 1 (by omega) (by omega))) k (by exact hk)
      refine ⟨(j * ni + i) * 2 + k, t, by dsimp only; omega, ?_, rfl, ?_, e2⟩
      · unfold columnFromTriangleIndex
        dsimp only
        rw [if_neg (by rw [ht1]; omega), if_neg (by simp)]
        obtain ⟨d1, d2⟩ := col_div j i k ni 2 h2 hk
        simp only [Option.some.injEq, Prod.mk.injEq]
        exact ⟨d1, d2⟩
      · dsimp only
        rw [ht2 j i k h1 h2 hk]
        exact e1
    · intro n hn
      unfold columnFromTriangleIndex
      dsimp only
      rw [if_pos hn]

example : (0 : Nat) < 1 ∧ 0 < 4 := by decide

/-- **C141** The triangles of a quadrangle cover it and do not overlap: here for the quadrangles of a flat mesh, of which the node
(j, i) is at (j, i), so that those of the whole mesh cover its rectangle.  `q` is in the square with its low corner at (j, i). -/
theorem C141_cover {K : Type} [Field K] [LinearOrder K] [IsStrictOrderedRing K] (four : Bool) (j i : K) (q : K × K) (h1 : j ≤ q.1)
    (h2 : q.1 ≤ j + 1) (h3 : i ≤ q.2) (h4 : q.2 ≤ i + 1) :
    ∃ t ∈ quadTriangles four (j + 1 / 2, i + 1 / 2) (j, i) (j, i + 1) (j + 1, i) (j + 1, i + 1), InTriangle t q := by
  cases four with
  | false =>
    simp only [quadTriangles, Bool.false_eq_true, if_false]
    by_cases h : (q.1 - j) + (q.2 - i) ≤ 1
    · refine ⟨_, List.mem_cons_self, 1 - (q.1 - j) - (q.2 - i), q.2 - i, q.1 - j, by linarith, by linarith, by linarith, by ring, ?_, ?_⟩
      · dsimp only; ring
      · dsimp only; ring
    · refine ⟨_, List.mem_cons_of_mem _ List.mem_cons_self, (q.1 - j) + (q.2 - i) - 1, 1 - (q.1 - j), 1 - (q.2 - i), by linarith,
        by linarith, by linarith, by ring, ?_, ?_⟩
      · dsimp only; ring
      · dsimp only; ring
  | true =>
    simp only [quadTriangles, if_true]
    have h2' : (1 / 2 : K) + 1 / 2 = 1 := by norm_num
    by_cases ha : q.1 - j ≤ q.2 - i
    · by_cases hb : (q.1 - j) + (q.2 - i) ≤ 1
      · -- next to the side from (j, i) to (j, i + 1)
        refine ⟨_, List.mem_cons_self, 2 * (q.1 - j), 1 - (q.1 - j) - (q.2 - i), (q.2 - i) - (q.1 - j), by linarith, by linarith,
          by linarith, by ring, ?_, ?_⟩
        · dsimp only; ring
        · dsimp only; ring
      · refine ⟨_, List.mem_cons_of_mem _ List.mem_cons_self, 2 * (1 - (q.2 - i)), (q.2 - i) - (q.1 - j),
          (q.1 - j) + (q.2 - i) - 1, by linarith, by linarith, by linarith, by ring, ?_, ?_⟩
        · dsimp only; ring
        · dsimp only; ring
    · by_cases hb : (q.1 - j) + (q.2 - i) ≤ 1
      · refine ⟨_, List.mem_cons_of_mem _ (List.mem_cons_of_mem _ (List.mem_cons_of_mem _ List.mem_cons_self)), 2 * (q.2 - i),
          (q.1 - j) - (q.2 - i), 1 - (q.1 - j) - (q.2 - i), by linarith, by linarith, by linarith, by ring, ?_, ?_⟩
        · dsimp only; ring
        · dsimp only; ring
      · refine ⟨_, List.mem_cons_of_mem _ (List.mem_cons_of_mem _ List.mem_cons_self), 2 * (1 - (q.1 - j)),
          (q.1 - j) + (q.2 - i) - 1, (q.1 - j) - (q.2 - i), by linarith, by linarith, by linarith, by ring, ?_, ?_⟩
        · dsimp only; ring
        · dsimp only; ring

/-- **C141** No point is inside two of the triangles. -/
theorem C141_no_overlap {K : Type} [Field K] [LinearOrder K] [IsStrictOrderedRing K] (four : Bool) (j i : K) (q : K × K) (m n : Nat)
    (hmn : m < n) (s t : (K × K) × (K × K) × (K × K))
    (hs : (quadTriangles four (j + 1 / 2, i + 1 / 2) (j, i) (j, i + 1) (j + 1, i) (j + 1, i + 1))[m]? = some s)
    (ht : (quadTriangles four (j + 1 / 2, i + 1 / 2) (j, i) (j, i + 1) (j + 1, i) (j + 1, i + 1))[n]? = some t) :
    ¬ (InsideTriangle s q ∧ InsideTriangle t q) := by
  rintro ⟨⟨u, v, w, hu, hv, hw, hs1, hx, hy⟩, ⟨u', v', w', hu', hv', hw', hs1', hx', hy'⟩⟩
  have eu : u = 1 - v - w := by linarith
  have eu' : u' = 1 - v' - w' := by linarith
  cases four with
  | false =>
    simp only [quadTriangles, Bool.false_eq_true, if_false] at hs ht
    have hn : n < 2 := by
      by_contra hc
      rw [List.getElem?_eq_none (by simp; omega)] at ht
      cases ht
    have : m = 0 ∧ n = 1 := by omega
    obtain ⟨rfl, rfl⟩ := this
    cases hs; cases ht
    dsimp only at hx hy hx' hy'
    subst eu eu'
    have a1 : q.1 - j = w := by rw [hx]; ring
    have a2 : q.2 - i = v := by rw [hy]; ring
    have b1 : q.1 - j = 1 - v' := by rw [hx']; ring
    have b2 : q.2 - i = 1 - w' := by rw [hy']; ring
    linarith
  | true =>
    simp only [quadTriangles, if_true] at hs ht
    have hn : n < 4 := by
      by_contra hc
      rw [List.getElem?_eq_none (by simp; omega)] at ht
      cases ht
    have h2' : (1 / 2 : K) + 1 / 2 = 1 := by norm_num
    have hm : m < 3 := by omega
    have ex : q.1 - j = u * (s.1.1 - j) + v * (s.2.1.1 - j) + w * (s.2.2.1 - j) := by rw [hx]; linear_combination j * hs1
    have ey : q.2 - i = u * (s.1.2 - i) + v * (s.2.1.2 - i) + w * (s.2.2.2 - i) := by rw [hy]; linear_combination i * hs1
    have ex' : q.1 - j = u' * (t.1.1 - j) + v' * (t.2.1.1 - j) + w' * (t.2.2.1 - j) := by rw [hx']; linear_combination j * hs1'
    have ey' : q.2 - i = u' * (t.1.2 - i) + v' * (t.2.1.2 - i) + w' * (t.2.2.2 - i) := by rw [hy']; linear_combination i * hs1'
    clear hx hy hx' hy' eu eu'
    interval_cases m <;> interval_cases n <;> first | omega | (
      cases hs; cases ht
      simp only [add_sub_cancel_left, sub_self, mul_zero, mul_one, add_zero, zero_add] at ex ey ex' ey'
      linarith)

example : (quadTriangles true ((1 : Rat) / 2, (1 : Rat) / 2) (0, 0) (0, 1) (1, 0) (1, 1))[1]? =
    some ((1 / 2, 1 / 2), (0, 1), (1, 1)) := rfl

end Verif.Surface
