import Verif.Surface.PropsPatches

namespace Verif.Surface
open Verif.Py Spec

variable {P : Type}

/-- a corner of a face of a cell: `axis` is 0, 1 or 2 for K, J, I and `side` 0 or 1 for the face at the low or the high end; `u` and `v`
are the indices along the other two axes -/
def faceCorner (cp : Nat → Nat → Nat → P) (axis side u v : Nat) : P :=
  if axis = 0 then cp side u v else if axis = 1 then cp u side v else cp u v side

/-- the triangles of a face with corners w0, w1, w2, w3 going round it: four around the centre, or two divided by the diagonal from w0
to w2 -/
def roundTriangles (four : Bool) (centre w0 w1 w2 w3 : P) : List (P × P × P) :=
  if four then [(centre, w0, w1), (centre, w1, w2), (centre, w2, w3), (centre, w3, w0)] else [(w0, w2, w1), (w0, w2, w3)]

/-- the triangles of a face of a cell -/
def faceTriangles (mean : P → P → P → P → P) (cp : Nat → Nat → Nat → P) (four : Bool) (axis side : Nat) : List (P × P × P) :=
  let f := faceCorner cp axis side
  roundTriangles four (mean (f 0 0) (f 0 1) (f 1 0) (f 1 1)) (f side side) (f side (1 - side)) (f (1 - side) (1 - side)) (f (1 - side) side)

/-- **C143** The triangles made for the faces of a cell are, face by face, those which go round the corners of the face. -/
theorem C143_faces (mean : P → P → P → P → P) (cp : Nat → Nat → Nat → P) (four : Bool) (axis side k : Nat) (ha : axis < 3) (hs : side < 2)
    (hk : k < perQuad four) :
    ∃ t, (cellTris four)[(2 * axis + side) * perQuad four + k]? = some t ∧ (cellTris four).length = 6 * perQuad four ∧
      corners (cellPoints mean cp four) t = (faceTriangles mean cp four axis side)[k]? := by
  cases four with
  | true =>
    simp only [perQuad, if_true] at hk ⊢
    interval_cases axis <;> interval_cases side <;> interval_cases k <;> exact ⟨_, rfl, rfl, rfl⟩
  | false =>
    simp only [perQuad, Bool.false_eq_true, if_false] at hk ⊢
    interval_cases axis <;> interval_cases side <;> interval_cases k <;> exact ⟨_, rfl, rfl, rfl⟩

/-- a triangle has a point as a corner -/
def hasCorner (t : Int × Int × Int) (k : Nat) : Bool := t.1 = k ∨ t.2.1 = k ∨ t.2.2 = k

/-- **C143** The triangles close up: every side of one of them is a side of exactly one other. -/
theorem C143_closed (four : Bool) (a b : Nat) (ha : a < 14) (hb : b < 14) (hab : a ≠ b) :
    ((cellTris four).filter fun t => hasCorner t a && hasCorner t b).length = 0 ∨
      ((cellTris four).filter fun t => hasCorner t a && hasCorner t b).length = 2 := by
  have : ∀ four : Bool, ∀ a ∈ List.range 14, ∀ b ∈ List.range 14, a ≠ b →
      ((cellTris four).filter fun t => hasCorner t a && hasCorner t b).length = 0 ∨
        ((cellTris four).filter fun t => hasCorner t a && hasCorner t b).length = 2 := by decide +kernel
  exact this four a (List.mem_range.2 ha) b (List.mem_range.2 hb) hab

/-- **C143** The cell, axis and side found for the number of a triangle are those for which the triangle was made, for any number of
cells. -/
theorem C143_index (four : Bool) (cell axis side k : Nat) (_ha : axis < 3) (hs : side < 2) (hk : k < perQuad four) :
    cellAxisPolarity four ((cell * (6 * perQuad four) + ((2 * axis + side) * perQuad four + k) : Nat) : Int) =
      ((cell : Int), (axis : Int), (side : Int)) := by
  unfold cellAxisPolarity
  cases four with
  | true =>
    simp only [perQuad, if_true] at hk ⊢
    have e : ((cell * (6 * 4) + ((2 * axis + side) * 4 + k) : Nat) : Int) / 4 = cell * 6 + (2 * axis + side) := by omega
    rw [e]
    simp only [Prod.mk.injEq]
    omega
  | false =>
    simp only [perQuad, Bool.false_eq_true, if_false] at hk ⊢
    have e : ((cell * (6 * 2) + ((2 * axis + side) * 2 + k) : Nat) : Int) / 2 = cell * 6 + (2 * axis + side) := by omega
    rw [e]
    simp only [Prod.mk.injEq]
    omega

/-- the patch of a cell, with natural numbers for the points -/
def cellPatch (mean : P → P → P → P → P) (cp : Nat → Nat → Nat → P) (four : Bool) : List Tri × List P :=
  ((cellTris four).map fun t => (t.1.toNat, t.2.1.toNat, t.2.2.toNat), cellPoints mean cp four)

theorem cellTris_bounds : ∀ four : Bool, ∀ t ∈ cellTris four, 0 ≤ t.1 ∧ 0 ≤ t.2.1 ∧ 0 ≤ t.2.2 ∧
    t.1 < (if four then 14 else 8) ∧ t.2.1 < (if four then 14 else 8) ∧ t.2.2 < (if four then 14 else 8) := by decide +kernel

theorem cornersN_toNat (points : List P) (t : Int × Int × Int) (h : 0 ≤ t.1 ∧ 0 ≤ t.2.1 ∧ 0 ≤ t.2.2) :
    cornersN points (t.1.toNat, t.2.1.toNat, t.2.2.toNat) = corners points t := by
  unfold cornersN corners
  rw [if_pos h]

/-- **C143** In the surface made for the faces of several cells, triangle by triangle: the cell, the axis and the side found for its number
are those of the face on which its corners are. -/
theorem C143_many_cells (mean : P → P → P → P → P) (cps : List (Nat → Nat → Nat → P)) (four : Bool) (cell axis side k : Nat)
    (cp : Nat → Nat → Nat → P) (hc : cps[cell]? = some cp) (ha : axis < 3) (hs : side < 2) (hk : k < perQuad four) :
    ∃ (ts : List Tri) (ps : List P) (n : Nat) (t : Tri), composite (cps.map fun cp => cellPatch mean cp four) = some (ts, ps) ∧
      ts.length = cps.length * (6 * perQuad four) ∧ ts[n]? = some t ∧
      cornersN ps t = (faceTriangles mean cp four axis side)[k]? ∧
      cellAxisPolarity four n = ((cell : Int), (axis : Int), (side : Int)) := by
  have hne : (cps.map fun cp => cellPatch mean cp four) ≠ [] := by
    intro h
    rw [List.map_eq_nil_iff] at h
    subst h
    simp at hc
  have hlenp : ∀ cp : Nat → Nat → Nat → P, (cellPoints mean cp four).length = if four then 14 else 8 := by
    intro cp
    cases four <;> rfl
  have hv : ∀ q ∈ (cps.map fun cp => cellPatch mean cp four), ∀ t ∈ q.1, (cornersN q.2 t).isSome := by
    intro q hq t ht
    obtain ⟨c, _, rfl⟩ := List.mem_map.1 hq
    obtain ⟨s, hs', rfl⟩ := List.mem_map.1 ht
    have := cellTris_bounds four s hs'
    rw [cornersN_isSome]
    show ValidTri (cellPoints mean c four).length _
    rw [hlenp]
    unfold ValidTri
    dsimp only
    cases four <;> simp only [if_true, Bool.false_eq_true, if_false] at this ⊢ <;> omega
  obtain ⟨ts, ps, h1, _, h3, h4⟩ := C146_composite _ hne hv
  obtain ⟨t0, f1, f2, f3⟩ := C143_faces mean cp four axis side k ha hs hk
  have look : ∀ (l : List (Nat → Nat → Nat → P)) (m : Nat), l[m]? = some cp →
      ((l.map fun cp => cellPatch mean cp four).flatMap (fun q => q.1.map (cornersN q.2)))[m * (6 * perQuad four) +
        ((2 * axis + side) * perQuad four + k)]? = some ((faceTriangles mean cp four axis side)[k]?) := by
    intro l
    induction l with
    | nil => intro m h; simp at h
    | cons c l ih =>
      intro m h
      rw [List.map_cons, List.flatMap_cons]
      have hlen : ((cellPatch mean c four).1.map (cornersN (cellPatch mean c four).2)).length = 6 * perQuad four := by
        rw [List.length_map]
        show ((cellTris four).map _).length = _
        rw [List.length_map, f2]
      cases m with
      | zero =>
        simp only [List.getElem?_cons_zero, Option.some.injEq] at h
        subst h
        rw [Nat.zero_mul, Nat.zero_add, List.getElem?_append_left]
        · show (((cellTris four).map _).map _)[_]? = _
          rw [List.map_map, List.getElem?_map, f1]
          have := cellTris_bounds four t0 (List.mem_of_getElem? f1)
          show some (cornersN (cellPoints mean c four) _) = _
          rw [cornersN_toNat _ _ ⟨this.1, this.2.1, this.2.2.1⟩, f3]
        · rw [hlen]
          cases four <;> simp only [perQuad, if_true, Bool.false_eq_true, if_false] at hk ⊢ <;> omega
      | succ m =>
        have := ih m (by simpa using h)
        rw [List.getElem?_append_right (by rw [hlen, Nat.add_one_mul m]; omega), hlen, Nat.add_one_mul m,
          show m * (6 * perQuad four) + 6 * perQuad four + ((2 * axis + side) * perQuad four + k) - 6 * perQuad four =
            m * (6 * perQuad four) + ((2 * axis + side) * perQuad four + k) by omega]
        exact this
  have hl := look cps cell hc
  rw [← h3, List.getElem?_map] at hl
  obtain ⟨r, hr1, hr2⟩ := Option.map_eq_some_iff.1 hl
  refine ⟨ts, ps, _, r, h1, ?_, hr1, hr2, C143_index four cell axis side k ha hs hk⟩
  rw [h4, List.map_map]
  have : ∀ l : List (Nat → Nat → Nat → P), (l.map ((fun q : List Tri × List P => q.1.length) ∘ fun cp => cellPatch mean cp four)).sum =
      l.length * (6 * perQuad four) := by
    intro l
    induction l with
    | nil => simp
    | cons c l ih =>
      rw [List.map_cons, List.sum_cons, ih, List.length_cons, Nat.add_one_mul l.length]
      show ((cellTris four).map _).length + _ = _
      rw [List.length_map, f2]
      omega
  exact this cps

example : ([fun k j i => (k, j, i), fun k j i => (k + 1, j, i)] : List (Nat → Nat → Nat → Nat × Nat × Nat))[1]? =
    some (fun k j i => (k + 1, j, i)) := rfl

/-- **C143** (negation) The method of a patch which should give the axis and side for the number of a triangle fails for every triangle of
every cell. -/
theorem C143_face_index_violated (four : Bool) (n : Int) :
    faceFromTriangleIndex four (cellNodeCount four) (cellTriangleCount four) n = .error .assertion := by
  cases four <;> rfl

end Verif.Surface
