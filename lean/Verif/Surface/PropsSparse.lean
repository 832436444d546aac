import Verif.Surface.Lemmas

namespace Verif.Surface
open Verif.Py Spec

variable {P α : Type}

theorem idxOf?_mem [BEq α] [LawfulBEq α] (l : List α) (x : α) (h : x ∈ l) : ∃ k, l.idxOf? x = some k ∧ l[k]? = some x := by
  induction l with
  | nil => simp at h
  | cons y l ih =>
    rw [List.idxOf?_cons]
    by_cases hy : y == x
    · exact ⟨0, by rw [if_pos hy], by simp [eq_of_beq hy]⟩
    · rw [if_neg hy]
      have hx : x ∈ l := by
        rcases List.mem_cons.1 h with e | e
        · subst e; simp at hy
        · exact e
      obtain ⟨k, h1, h2⟩ := ih hx
      exact ⟨k + 1, by rw [h1]; rfl, by simpa using h2⟩

theorem idxOf?_not_mem [BEq α] [LawfulBEq α] (l : List α) (x : α) (h : x ∉ l) : l.idxOf? x = none := by
  induction l with
  | nil => rfl
  | cons y l ih =>
    rw [List.idxOf?_cons, if_neg, ih (fun e => h (List.mem_cons_of_mem _ e))]
    · rfl
    · intro e
      exact h (by rw [eq_of_beq e]; exact List.mem_cons_self)

theorem mem_nonNans (nj ni : Nat) (nan : Nat → Nat → Bool) (j i : Nat) :
    (j, i) ∈ nonNans nj ni nan ↔ j < nj ∧ i < ni ∧ nan j i = false := by
  unfold nonNans
  simp [List.mem_filter, and_assoc]

/-- a node of a mesh, if it is defined -/
def nodeAt (mesh : Nat → Nat → P) (nan : Nat → Nat → Bool) (j i : Nat) : Option P := if nan j i then none else some (mesh j i)

theorem sparseIndex_nan {nj ni : Nat} {nan : Nat → Nat → Bool} {j i : Nat} (h : nan j i = true) : sparseIndex nj ni nan j i = -1 := by
  unfold sparseIndex
  rw [idxOf?_not_mem _ _ (by rw [mem_nonNans]; simp [h])]

theorem sparseIndex_ok {nj ni : Nat} (mesh : Nat → Nat → P) {nan : Nat → Nat → Bool} {j i : Nat} (h : nan j i = false) (hj : j < nj)
    (hi : i < ni) : 0 ≤ sparseIndex nj ni nan j i ∧
      ((nonNans nj ni nan).map fun q => mesh q.1 q.2)[(sparseIndex nj ni nan j i).toNat]? = some (mesh j i) := by
  obtain ⟨k, h1, h2⟩ := idxOf?_mem (nonNans nj ni nan) (j, i) ((mem_nonNans ..).2 ⟨hj, hi, h⟩)
  unfold sparseIndex
  rw [h1]
  simp [h2]

theorem concatRes_ok (L : List (List α)) : concatRes (L.map (Except.ok : List α → Res (List α))) = .ok L.flatten := by
  induction L with
  | nil => rfl
  | cons l L ih => simp [concatRes, ih]

theorem corners_some {points : List P} {x y z : Int} {a b c : P} (ha : 0 ≤ x ∧ points[x.toNat]? = some a)
    (hb : 0 ≤ y ∧ points[y.toNat]? = some b) (hc : 0 ≤ z ∧ points[z.toNat]? = some c) :
    corners points (x, y, z) = some (a, b, c) := by
  unfold corners
  rw [if_pos ⟨ha.1, hb.1, hc.1⟩]
  dsimp only
  rw [ha.2, hb.2, hc.2]

theorem sparseQuad_ok (nj ni : Nat) (mesh : Nat → Nat → P) (nan : Nat → Nat → Bool) (j i : Nat) (hj : j + 1 < nj) (hi : i + 1 < ni) :
    ∃ ts, sparseQuad (nan j i) (nan j (i + 1)) (nan (j + 1) i) (nan (j + 1) (i + 1)) (sparseIndex nj ni nan j i)
        (sparseIndex nj ni nan j (i + 1)) (sparseIndex nj ni nan (j + 1) i) (sparseIndex nj ni nan (j + 1) (i + 1)) = .ok ts ∧
      ts.map (corners ((nonNans nj ni nan).map fun q => mesh q.1 q.2)) =
        (sparseTriangles (nodeAt mesh nan j i) (nodeAt mesh nan j (i + 1)) (nodeAt mesh nan (j + 1) i)
          (nodeAt mesh nan (j + 1) (i + 1))).map some := by
  have key : ∀ j i, j < nj → i < ni → (nan j i = true ∧ nodeAt mesh nan j i = none ∧ sparseIndex nj ni nan j i = -1) ∨
      (nan j i = false ∧ nodeAt mesh nan j i = some (mesh j i) ∧ 0 ≤ sparseIndex nj ni nan j i ∧
        ((nonNans nj ni nan).map fun q => mesh q.1 q.2)[(sparseIndex nj ni nan j i).toNat]? = some (mesh j i)) := by
    intro j i hj hi
    cases h : nan j i with
    | true => exact .inl ⟨rfl, by simp [nodeAt, h], sparseIndex_nan h⟩
    | false => exact .inr ⟨rfl, by simp [nodeAt, h], sparseIndex_ok mesh h hj hi⟩
  generalize ((nonNans nj ni nan).map fun q => mesh q.1 q.2) = pts at key ⊢
  have ka := key j i (by omega) (by omega)
  have kb := key j (i + 1) (by omega) (by omega)
  have kc := key (j + 1) i (by omega) (by omega)
  have kd := key (j + 1) (i + 1) (by omega) (by omega)
  clear key
  generalize sparseIndex nj ni nan j i = xa at ka ⊢
  generalize sparseIndex nj ni nan j (i + 1) = xb at kb ⊢
  generalize sparseIndex nj ni nan (j + 1) i = xc at kc ⊢
  generalize sparseIndex nj ni nan (j + 1) (i + 1) = xd at kd ⊢
  unfold sparseQuad
  rcases ka with ⟨a1, a2, a3⟩ | ⟨a1, a2, a3⟩ <;> rcases kb with ⟨b1, b2, b3⟩ | ⟨b1, b2, b3⟩ <;>
    rcases kc with ⟨c1, c2, c3⟩ | ⟨c1, c2, c3⟩ <;> rcases kd with ⟨d1, d2, d3⟩ | ⟨d1, d2, d3⟩ <;>
    rw [a1, b1, c1, d1, a2, b2, c2, d2] <;> dsimp only [sparseTriangles]
  case inr.inr.inr.inr =>
    exact ⟨[(xa, xb, xc), (xd, xb, xc)], rfl, by simp [corners_some a3 b3 c3, corners_some d3 b3 c3]⟩
  case inl.inr.inr.inr =>
    refine ⟨[(xb, xc, xd)], ?_, by simp [corners_some b3 c3 d3]⟩
    rw [if_neg (by decide), if_neg (by decide), if_pos (by omega)]
  case inr.inl.inr.inr =>
    refine ⟨[(xa, xc, xd)], ?_, by simp [corners_some a3 c3 d3]⟩
    rw [if_neg (by decide), if_neg (by decide), if_neg (by omega), if_pos (by omega)]
  case inr.inr.inl.inr =>
    refine ⟨[(xb, xa, xd)], ?_, by simp [corners_some b3 a3 d3]⟩
    rw [if_neg (by decide), if_neg (by decide), if_neg (by omega), if_neg (by omega), if_pos (by omega)]
  case inr.inr.inr.inl =>
    refine ⟨[(xb, xc, xa)], ?_, by simp [corners_some b3 c3 a3]⟩
    rw [if_neg (by decide), if_neg (by decide), if_neg (by omega), if_neg (by omega), if_neg (by omega), if_pos (by omega)]
  all_goals exact ⟨[], by rw [if_pos (by decide)], rfl⟩

/-- **C142** A surface made from a mesh with undefined nodes: the points are the defined nodes, row by row, and the triangles are, in the
order of the quadrangles, those of each quadrangle with all corners defined and the one of each with three. -/
theorem C142_sparse_mesh (nj ni : Nat) (mesh : Nat → Nat → P) (undefinedAt : Nat → Nat → Bool) (hj : 1 < nj) (hi : 1 < ni) :
    ∃ ts ps, fromSparseMesh nj ni mesh undefinedAt = .ok (ts, ps) ∧
      ps = ((List.range nj).flatMap fun j => (List.range ni).map fun i =>
        if undefinedAt j i then none else some (mesh j i)).filterMap id ∧
      ts.map (corners ps) = ((List.range (nj - 1)).flatMap fun j => (List.range (ni - 1)).flatMap fun i => sparseTriangles
        (if undefinedAt j i then none else some (mesh j i)) (if undefinedAt j (i + 1) then none else some (mesh j (i + 1)))
        (if undefinedAt (j + 1) i then none else some (mesh (j + 1) i))
        (if undefinedAt (j + 1) (i + 1) then none else some (mesh (j + 1) (i + 1)))).map some := by
  let pts : List P := (nonNans nj ni undefinedAt).map fun q => mesh q.1 q.2
  have hex : ∀ j i : Nat, ∃ ts, (j + 1 < nj → i + 1 < ni → sparseQuad (undefinedAt j i) (undefinedAt j (i + 1)) (undefinedAt (j + 1) i) (undefinedAt (j + 1) (i + 1)) (sparseIndex nj ni undefinedAt j i)
        (sparseIndex nj ni undefinedAt j (i + 1)) (sparseIndex nj ni undefinedAt (j + 1) i) (sparseIndex nj ni undefinedAt (j + 1) (i + 1)) = .ok ts ∧
      ts.map (corners pts) =
        (sparseTriangles (nodeAt mesh undefinedAt j i) (nodeAt mesh undefinedAt j (i + 1)) (nodeAt mesh undefinedAt (j + 1) i)
          (nodeAt mesh undefinedAt (j + 1) (i + 1))).map some) := by
    intro j i
    by_cases h : j + 1 < nj ∧ i + 1 < ni
    · obtain ⟨ts, h1, h2⟩ := sparseQuad_ok nj ni mesh undefinedAt j i h.1 h.2
      exact ⟨ts, fun _ _ => ⟨h1, h2⟩⟩
    · exact ⟨[], fun h1 h2 => absurd ⟨h1, h2⟩ h⟩
  choose F hF using hex
  have hlist : ((List.range (nj - 1)).flatMap fun j => (List.range (ni - 1)).map fun i =>
        sparseQuad (undefinedAt j i) (undefinedAt j (i + 1)) (undefinedAt (j + 1) i) (undefinedAt (j + 1) (i + 1))
          (sparseIndex nj ni undefinedAt j i) (sparseIndex nj ni undefinedAt j (i + 1)) (sparseIndex nj ni undefinedAt (j + 1) i)
          (sparseIndex nj ni undefinedAt (j + 1) (i + 1))) =
      ((List.range (nj - 1)).flatMap fun j => (List.range (ni - 1)).map fun i => F j i).map Except.ok := by
    rw [List.map_flatMap]
    refine flatMap_congr' fun j hj' => ?_
    rw [List.map_map]
    refine List.map_congr_left fun i hi' => ?_
    rw [List.mem_range] at hj' hi'
    exact (hF j i (by omega) (by omega)).1
  refine ⟨((List.range (nj - 1)).flatMap fun j => (List.range (ni - 1)).map fun i => F j i).flatten, pts, ?_, ?_, ?_⟩
  · unfold fromSparseMesh
    rw [if_pos ⟨hj, hi⟩]
    dsimp only
    rw [hlist, concatRes_ok]
  · have : ∀ l : List (Nat × Nat), (l.filter fun q => ! undefinedAt q.1 q.2).map (fun q => mesh q.1 q.2) =
        (l.map fun q => if undefinedAt q.1 q.2 then none else some (mesh q.1 q.2)).filterMap id := by
      intro l
      induction l with
      | nil => rfl
      | cons q l ih =>
        rw [List.filter_cons]
        cases h : undefinedAt q.1 q.2 <;> simp [h, ih]
    show (nonNans nj ni undefinedAt).map (fun q => mesh q.1 q.2) = _
    unfold nonNans
    rw [this, List.map_flatMap]
    simp only [List.map_map]
    rfl
  · rw [List.map_flatten, List.map_flatMap, List.map_flatMap, List.flatten_eq_flatMap, List.flatMap_assoc]
    refine flatMap_congr' fun j hj' => ?_
    rw [List.map_map, List.map_flatMap, List.flatMap_map]
    refine flatMap_congr' fun i hi' => ?_
    rw [List.mem_range] at hj' hi'
    exact (hF j i (by omega) (by omega)).2

example : fromSparseMesh 2 3 (fun j i => (j, i)) (fun j i => j = 0 && i = 0) =
    .ok ([(0, 2, 3), (0, 1, 3), (4, 1, 3)], [(0, 1), (0, 2), (1, 0), (1, 1), (1, 2)]) := by decide

end Verif.Surface
