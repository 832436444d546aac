import Verif.Unstruct.Tetra
import Verif.Unstruct.Props
import Mathlib.Tactic.Ring
import Mathlib.Tactic.FieldSimp
import Mathlib.Tactic.Linarith
import Mathlib.Tactic.IntervalCases

/-!
# C124: cells divided into tetrahedra, volumes of cells of any shape
-/

namespace Verif.Unstruct.Tetra
open Verif.Py Verif.Unstruct
open Verif.Volume (Vec tetrahedronVolume pyramidVolume)

theorem res_bind {α β : Type} (x : α) (f : α → Res β) : ((Except.ok x : Res α) >>= f) = f x := rfl

/-! ## the tetrahedra -/

theorem nodeIndex_ok {nodes : List Nat} {u : Nat} (h : u ∈ nodes) : nodeIndex nodes u = .ok (nodes.idxOf u) := by
  unfold nodeIndex
  rw [if_pos h]

theorem edgeFaces_ok (nodes : List Nat) : ∀ (es : List (Nat × Nat)), (∀ e ∈ es, e.1 ∈ nodes ∧ e.2 ∈ nodes) →
    edgeFaces nodes es = .ok (es.map fun e => (nodes.idxOf e.1, nodes.idxOf e.2, nodes.length))
  | [], _ => rfl
  | (a, b) :: es, h => by
    have h1 := h (a, b) (by simp)
    unfold edgeFaces
    rw [nodeIndex_ok h1.1, res_bind, nodeIndex_ok h1.2, res_bind, edgeFaces_ok nodes es (fun e he => h e (by simp [he]))]
    rfl

/-- the corners of a triangle as local nodes -/
def localTri (nodes : List Nat) (t : Tri) : Tri := (nodes.idxOf t.1, nodes.idxOf t.2.1, nodes.idxOf t.2.2)

/-- the nodes of the faces of the tetrahedron on a triangle -/
def faceNodes (n : Nat) (t : Tri) : List (List Nat) :=
  [[t.1, t.2.1, t.2.2], [(minMax t.1 t.2.1).1, (minMax t.1 t.2.1).2, n], [(minMax t.2.1 t.2.2).1, (minMax t.2.1 t.2.2).2, n],
    [(minMax t.2.2 t.1).1, (minMax t.2.2 t.1).2, n]]

/-- internal faces are listed once -/
def Once (n : Nat) (faces : List Tri) : Prop :=
  ∀ (p q : Nat) (x y : Nat), faces[p]? = some (x, y, n) → faces[q]? = some (x, y, n) → p = q

theorem placeFace_prefix (faces : List Tri) (f : Tri) : ∃ e, (placeFace faces f).1 = faces ++ e := by
  unfold placeFace
  split_ifs
  · exact ⟨[], by simp⟩
  · exact ⟨[f], rfl⟩

theorem placeFace_get (faces : List Tri) (f : Tri) : (placeFace faces f).1[(placeFace faces f).2]? = some f := by
  unfold placeFace
  split_ifs with h
  · rw [List.getElem?_eq_getElem (List.idxOf_lt_length_of_mem h), List.getElem_idxOf]
  · simp

theorem placeFace_once {n : Nat} {faces : List Tri} (h : Once n faces) (f : Tri) : Once n (placeFace faces f).1 := by
  unfold placeFace
  split_ifs with hm
  · exact h
  · intro p q x y hp hq
    have out : ∀ {p : Nat}, (faces ++ [f])[p]? = some (x, y, n) → (faces[p]? = some (x, y, n)) ∨ (p = faces.length ∧ f = (x, y, n)) := by
      intro p hp
      by_cases hl : p < faces.length
      · rw [List.getElem?_append_left hl] at hp
        exact Or.inl hp
      · rw [List.getElem?_append_right (by omega)] at hp
        have h0 : p - faces.length = 0 := by
          by_contra hne
          have : ([f] : List Tri)[p - faces.length]? = none := by
            rw [List.getElem?_eq_none_iff]; simp; omega
          rw [this] at hp
          exact absurd hp (by simp)
        rw [h0] at hp
        exact Or.inr ⟨by omega, by simpa using hp⟩
    rcases out hp with h1 | ⟨h1, h2⟩ <;> rcases out hq with h3 | ⟨h3, h4⟩
    · exact h p q x y h1 h3
    · exact absurd (List.mem_iff_getElem?.mpr ⟨p, by rw [h4]; exact h1⟩) hm
    · exact absurd (List.mem_iff_getElem?.mpr ⟨q, by rw [h2]; exact h3⟩) hm
    · omega

theorem append_once {n : Nat} {faces : List Tri} (h : Once n faces) {a b c : Nat} (hc : c ≠ n) : Once n (faces ++ [(a, b, c)]) := by
  intro p q x y hp hq
  have out : ∀ {p : Nat}, (faces ++ [(a, b, c)])[p]? = some (x, y, n) → faces[p]? = some (x, y, n) := by
    intro p hp
    by_cases hl : p < faces.length
    · rwa [List.getElem?_append_left hl] at hp
    · exfalso
      rw [List.getElem?_append_right (by omega)] at hp
      have hm := List.mem_of_getElem? hp
      simp only [List.mem_singleton, Prod.mk.injEq] at hm
      exact hc hm.2.2.symm
  exact h p q x y (out hp) (out hq)

theorem addTriangle_prefix (n : Nat) (faces : List Tri) (a b c : Nat) :
    ∃ e, (addTriangle n faces a b c).1 = (faces ++ [(a, b, c)]) ++ e := by
  unfold addTriangle
  simp only
  obtain ⟨e1, h1⟩ := placeFace_prefix (faces ++ [(a, b, c)]) ((minMax a b).1, (minMax a b).2, n)
  obtain ⟨e2, h2⟩ := placeFace_prefix (placeFace (faces ++ [(a, b, c)]) ((minMax a b).1, (minMax a b).2, n)).1
    ((minMax b c).1, (minMax b c).2, n)
  obtain ⟨e3, h3⟩ := placeFace_prefix (placeFace (placeFace (faces ++ [(a, b, c)]) ((minMax a b).1, (minMax a b).2, n)).1
    ((minMax b c).1, (minMax b c).2, n)).1 ((minMax c a).1, (minMax c a).2, n)
  exact ⟨e1 ++ e2 ++ e3, by rw [h3, h2, h1]; simp only [List.append_assoc]⟩

theorem addTriangle_once {n : Nat} {faces : List Tri} (h : Once n faces) {a b c : Nat} (hc : c ≠ n) : Once n (addTriangle n faces a b c).1 := by
  unfold addTriangle
  exact placeFace_once (placeFace_once (placeFace_once (append_once h hc) _) _) _

theorem prefix_get {l e : List Tri} {i : Nat} {x : Tri} (h : l[i]? = some x) : (l ++ e)[i]? = some x := by
  have := (List.getElem?_eq_some_iff.mp h).1
  rw [List.getElem?_append_left this]
  exact h

/-- a cell of four faces: where they are listed -/
def CellAt (n : Nat) (faces : List Tri) (t : Tri) (cell : List Nat) (m : Nat) : Prop :=
  ∃ p1 p2 p3 : Nat, cell = [m, p1, p2, p3] ∧ faces[m]? = some t ∧ faces[p1]? = some ((minMax t.1 t.2.1).1, (minMax t.1 t.2.1).2, n) ∧
    faces[p2]? = some ((minMax t.2.1 t.2.2).1, (minMax t.2.1 t.2.2).2, n) ∧ faces[p3]? = some ((minMax t.2.2 t.1).1, (minMax t.2.2 t.1).2, n)

theorem cellAt_prefix {n : Nat} {faces e : List Tri} {t : Tri} {cell : List Nat} {m : Nat} (h : CellAt n faces t cell m) :
    CellAt n (faces ++ e) t cell m := by
  obtain ⟨p1, p2, p3, h1, h2, h3, h4, h5⟩ := h
  exact ⟨p1, p2, p3, h1, prefix_get h2, prefix_get h3, prefix_get h4, prefix_get h5⟩

theorem addTriangle_cell (n : Nat) (faces : List Tri) (a b c : Nat) :
    CellAt n (addTriangle n faces a b c).1 (a, b, c) (addTriangle n faces a b c).2 faces.length := by
  unfold addTriangle
  simp only
  obtain ⟨e1, h1⟩ := placeFace_prefix (faces ++ [(a, b, c)]) ((minMax a b).1, (minMax a b).2, n)
  obtain ⟨e2, h2⟩ := placeFace_prefix (placeFace (faces ++ [(a, b, c)]) ((minMax a b).1, (minMax a b).2, n)).1
    ((minMax b c).1, (minMax b c).2, n)
  obtain ⟨e3, h3⟩ := placeFace_prefix (placeFace (placeFace (faces ++ [(a, b, c)]) ((minMax a b).1, (minMax a b).2, n)).1
    ((minMax b c).1, (minMax b c).2, n)).1 ((minMax c a).1, (minMax c a).2, n)
  refine ⟨_, _, _, rfl, ?_, ?_, ?_, placeFace_get _ _⟩
  · rw [h3, h2, h1]
    exact prefix_get (prefix_get (prefix_get (by simp)))
  · rw [h3, h2]
    exact prefix_get (prefix_get (placeFace_get _ _))
  · rw [h3]
    exact prefix_get (placeFace_get _ _)

theorem addTriangles_ok (nodes : List Nat) : ∀ (ts : List Tri) (faces : List Tri),
    (∀ t ∈ ts, t.1 ∈ nodes ∧ t.2.1 ∈ nodes ∧ t.2.2 ∈ nodes) → Once nodes.length faces →
    ∃ e cells, addTriangles nodes ts faces = .ok (faces ++ e, cells) ∧ cells.length = ts.length ∧ Once nodes.length (faces ++ e) ∧
      ∃ ms : List Nat, ms.length = ts.length ∧ ms.Pairwise (· < ·) ∧ (∀ m ∈ ms, faces.length ≤ m) ∧
        ∀ (i : Nat) (t : Tri) (m : Nat), ts[i]? = some t → ms[i]? = some m →
          ∃ cell, cells[i]? = some cell ∧ CellAt nodes.length (faces ++ e) (localTri nodes t) cell m
  | [], faces, _, ho => ⟨[], [], by simp [addTriangles], rfl, by simpa using ho, [], rfl, by simp, by simp, by simp⟩
  | (a, b, c) :: ts, faces, hm, ho => by
    obtain ⟨h1, h2, h3⟩ := hm (a, b, c) (by simp)
    simp only at h1 h2 h3
    have hc : nodes.idxOf c ≠ nodes.length := by
      have := List.idxOf_lt_length_of_mem h3
      omega
    have ho' := addTriangle_once ho (a := nodes.idxOf a) (b := nodes.idxOf b) hc
    obtain ⟨e, cells, g1, g2, g3, ms, g4, g5, g6, g7⟩ := addTriangles_ok nodes ts
      (addTriangle nodes.length faces (nodes.idxOf a) (nodes.idxOf b) (nodes.idxOf c)).1 (fun t ht => hm t (by simp [ht])) ho'
    obtain ⟨e0, he0⟩ := addTriangle_prefix nodes.length faces (nodes.idxOf a) (nodes.idxOf b) (nodes.idxOf c)
    have hcell := addTriangle_cell nodes.length faces (nodes.idxOf a) (nodes.idxOf b) (nodes.idxOf c)
    have eq : (addTriangle nodes.length faces (nodes.idxOf a) (nodes.idxOf b) (nodes.idxOf c)).1 ++ e =
        faces ++ ([(nodes.idxOf a, nodes.idxOf b, nodes.idxOf c)] ++ e0 ++ e) := by
      rw [he0]; simp only [List.append_assoc]
    have hlen : faces.length < (addTriangle nodes.length faces (nodes.idxOf a) (nodes.idxOf b) (nodes.idxOf c)).1.length := by
      rw [he0]; simp only [List.length_append, List.length_cons, List.length_nil]; omega
    refine ⟨[(nodes.idxOf a, nodes.idxOf b, nodes.idxOf c)] ++ e0 ++ e,
      (addTriangle nodes.length faces (nodes.idxOf a) (nodes.idxOf b) (nodes.idxOf c)).2 :: cells, ?_, by simp [g2], by rw [← eq]; exact g3,
      faces.length :: ms, by simp [g4], ?_, ?_, ?_⟩
    · rw [addTriangles.eq_2, nodeIndex_ok h1, res_bind, nodeIndex_ok h2, res_bind, nodeIndex_ok h3, res_bind, g1, res_bind, eq]
      rfl
    · rw [List.pairwise_cons]
      exact ⟨fun m hmm => Nat.lt_of_lt_of_le hlen (g6 m hmm), g5⟩
    · intro m hmm
      rcases List.mem_cons.mp hmm with rfl | hmm
      · exact le_refl _
      · exact Nat.le_trans (Nat.le_of_lt hlen) (g6 m hmm)
    · intro i t m hi hmi
      rcases i with _ | i
      · simp only [List.getElem?_cons_zero, Option.some.injEq] at hi hmi
        subst hi hmi
        refine ⟨_, by rw [List.getElem?_cons_zero], ?_⟩
        rw [← eq]
        exact cellAt_prefix hcell
      · rw [List.getElem?_cons_succ] at hi hmi
        obtain ⟨cell, k1, k2⟩ := g7 i t m hi hmi
        refine ⟨cell, by rw [List.getElem?_cons_succ]; exact k1, ?_⟩
        rw [← eq]
        exact k2

theorem facesOf_cell {n : Nat} {faces : List Tri} {t : Tri} {cell : List Nat} {m : Nat} (h : CellAt n faces t cell m) :
    facesOf faces cell = .ok (faceNodes n t) := by
  obtain ⟨p1, p2, p3, rfl, h2, h3, h4, h5⟩ := h
  simp only [facesOf, h2, h3, h4, h5, res_bind]
  rfl

/-! ## the volume of one tetrahedron -/

variable {K : Type} [Field K]

theorem pointsOf_ok (points : List (Vec K)) (P : Nat → Vec K) : ∀ (ns : List Nat), (∀ n ∈ ns, points[n]? = some (P n)) →
    pointsOf points ns = .ok (ns.map P)
  | [], _ => rfl
  | n :: ns, h => by
    unfold pointsOf
    rw [h n (by simp)]
    simp only
    rw [pointsOf_ok points P ns (fun m hm => h m (by simp [hm]))]
    rfl

variable [LinearOrder K]

theorem volume_swap12 [IsStrictOrderedRing K] (a b c d : Vec K) : tetrahedronVolume b a c d = tetrahedronVolume a b c d := by
  unfold tetrahedronVolume
  rw [← abs_neg]
  congr 2
  simp only [Verif.Volume.dot, Verif.Volume.cross, Verif.Volume.sub_def]
  ring

theorem volume_swap23 [IsStrictOrderedRing K] (a b c d : Vec K) : tetrahedronVolume a c b d = tetrahedronVolume a b c d := by
  unfold tetrahedronVolume
  rw [← abs_neg]
  congr 2
  simp only [Verif.Volume.dot, Verif.Volume.cross, Verif.Volume.sub_def]
  ring

theorem minMax_mem (a b x : Nat) : (x = (minMax a b).1 ∨ x = (minMax a b).2) ↔ x = a ∨ x = b := by
  unfold minMax
  split_ifs <;> simp only <;> omega

theorem tetra_nodes {n i j k : Nat} (hi : i < n) (hj : j < n) (hk : k < n) (hij : i ≠ j) (hjk : j ≠ k) (hik : i ≠ k) :
    ∃ a b c, distinctNodes (faceNodes n (i, j, k)) = .ok [a, b, c, n] ∧
      ((a, b, c) = (i, j, k) ∨ (a, b, c) = (i, k, j) ∨ (a, b, c) = (j, i, k) ∨ (a, b, c) = (j, k, i) ∨ (a, b, c) = (k, i, j) ∨
        (a, b, c) = (k, j, i)) := by
  obtain ⟨l, h1, h2, h3⟩ := C119_distinct_nodes (faceNodes n (i, j, k)) (by simp [faceNodes])
  have hmem : ∀ x, x ∈ l ↔ x = i ∨ x = j ∨ x = k ∨ x = n := by
    intro x
    rw [h3]
    simp only [faceNodes, List.mem_cons, List.not_mem_nil, or_false, exists_eq_or_imp, exists_eq_left]
    have m1 := minMax_mem i j x
    have m2 := minMax_mem j k x
    have m3 := minMax_mem k i x
    constructor
    · rintro (h | h | h | h)
      · omega
      · rcases h with h | h | h <;> omega
      · rcases h with h | h | h <;> omega
      · rcases h with h | h | h <;> omega
    · intro h
      by_cases hx : x = n
      · exact Or.inr (Or.inl (Or.inr (Or.inr hx)))
      · exact Or.inl (by omega)
  have fin : ∀ a b c, a < b → b < c → c < n → (∀ x, (x = i ∨ x = j ∨ x = k ∨ x = n) ↔ (x = a ∨ x = b ∨ x = c ∨ x = n)) → l = [a, b, c, n] := by
    intro a b c hab hbc hcn hx
    refine List.Pairwise.eq_of_mem_iff h2 ?_ ?_
    · simp only [List.pairwise_cons, List.mem_cons, List.not_mem_nil, or_false, forall_eq_or_imp, forall_eq, List.Pairwise.nil, and_true,
        IsEmpty.forall_iff, implies_true]
      omega
    · intro x
      rw [hmem, hx]
      simp
  rcases Nat.lt_or_gt_of_ne hij with a1 | a1 <;> rcases Nat.lt_or_gt_of_ne hjk with a2 | a2 <;> rcases Nat.lt_or_gt_of_ne hik with a3 | a3
  · exact ⟨i, j, k, by rw [h1, fin i j k a1 a2 hk (by intro x; omega)], by simp⟩
  · omega
  · exact ⟨i, k, j, by rw [h1, fin i k j a3 a2 hj (by intro x; omega)], by simp⟩
  · exact ⟨k, i, j, by rw [h1, fin k i j a3 a1 hj (by intro x; omega)], by simp⟩
  · exact ⟨j, i, k, by rw [h1, fin j i k a1 a3 hk (by intro x; omega)], by simp⟩
  · exact ⟨j, k, i, by rw [h1, fin j k i a2 a3 hi (by intro x; omega)], by simp⟩
  · omega
  · exact ⟨k, j, i, by rw [h1, fin k j i a2 a1 hi (by intro x; omega)], by simp⟩

theorem tetraVolume_cell [IsStrictOrderedRing K] (g : TetraGrid K) (P : Nat → Vec K) {n i j k : Nat} {cell : List Nat} {m : Nat}
    (h : CellAt n g.faces (i, j, k) cell m) (hP : ∀ x, x ≤ n → g.points[x]? = some (P x))
    (hi : i < n) (hj : j < n) (hk : k < n) (hij : i ≠ j) (hjk : j ≠ k) (hik : i ≠ k) :
    tetraVolume g cell = .ok (tetrahedronVolume (P i) (P j) (P k) (P n)) := by
  obtain ⟨a, b, c, h1, h2⟩ := tetra_nodes hi hj hk hij hjk hik
  have habc : a ≤ n ∧ b ≤ n ∧ c ≤ n := by
    rcases h2 with h2 | h2 | h2 | h2 | h2 | h2 <;> simp only [Prod.mk.injEq] at h2 <;> omega
  unfold tetraVolume
  rw [facesOf_cell h, res_bind, h1, res_bind, pointsOf_ok g.points P [a, b, c, n] (by
    simp only [List.mem_cons, List.not_mem_nil, or_false, forall_eq_or_imp, forall_eq]
    exact ⟨hP a habc.1, hP b habc.2.1, hP c habc.2.2, hP n (le_refl n)⟩), res_bind]
  simp only [List.map_cons, List.map_nil, pure, Except.pure, Except.ok.injEq]
  rcases h2 with h2 | h2 | h2 | h2 | h2 | h2 <;> simp only [Prod.mk.injEq] at h2 <;> obtain ⟨rfl, rfl, rfl⟩ := h2
  · rfl
  · rw [volume_swap23]
  · rw [volume_swap12]
  · exact (volume_swap23 (P a) (P b) (P c) _).symm.trans (volume_swap12 (P c) (P a) (P b) _)
  · rw [volume_swap12, volume_swap23]
  · rw [volume_swap12, volume_swap23, volume_swap12]

/-! ## theorems: the tetrahedra -/

/-- the triangles of the faces of a cell: their corners are nodes of the cell, and different -/
def TrianglesOf (faces : List (List Nat)) (tris : List Tri) : Prop :=
  tris ≠ [] ∧ ∀ t ∈ tris, (∃ f ∈ faces, t.1 ∈ f) ∧ (∃ f ∈ faces, t.2.1 ∈ f) ∧ (∃ f ∈ faces, t.2.2 ∈ f) ∧
    t.1 ≠ t.2.1 ∧ t.2.1 ≠ t.2.2 ∧ t.1 ≠ t.2.2

theorem idxOf_inj {nodes : List Nat} {a b : Nat} (ha : a ∈ nodes) (hb : b ∈ nodes) (h : nodes.idxOf a = nodes.idxOf b) : a = b := by
  have h1 := List.getElem_idxOf (List.idxOf_lt_length_of_mem ha)
  have h2 := List.getElem_idxOf (List.idxOf_lt_length_of_mem hb)
  rw [← h1, ← h2]
  simp only [h]

theorem edgeFaces_once {nodes : List Nat} {es : List (Nat × Nat)} (hn : es.Nodup) (hm : ∀ e ∈ es, e.1 ∈ nodes ∧ e.2 ∈ nodes) :
    Once nodes.length (es.map fun e => (nodes.idxOf e.1, nodes.idxOf e.2, nodes.length)) := by
  intro p q x y hp hq
  have hnd : (es.map fun e => (nodes.idxOf e.1, nodes.idxOf e.2, nodes.length)).Nodup := by
    refine List.Nodup.map_on ?_ hn
    intro d hd e he h
    simp only [Prod.mk.injEq, and_true] at h
    exact Prod.ext (idxOf_inj (hm d hd).1 (hm e he).1 h.1) (idxOf_inj (hm d hd).2 (hm e he).2 h.2)
  obtain ⟨h1, h2⟩ := List.getElem?_eq_some_iff.mp hp
  obtain ⟨h3, h4⟩ := List.getElem?_eq_some_iff.mp hq
  exact (List.Nodup.getElem_inj_iff hnd).mp (h2.trans h4.symm)

theorem isEdge_mem {f : List Nat} {a b : Nat} (h : IsEdge f a b) : a ∈ f ∧ b ∈ f := by
  obtain ⟨i, h1, h2⟩ := h
  exact ⟨List.mem_of_getElem? h2, List.mem_of_getElem? h1⟩

/-- a cell of the grid of tetrahedra is the tetrahedron on a triangle of the surface of the cell divided, with the centre: its faces are the
triangle and those joining the three sides to the centre.  `nodes` are the nodes of the cell divided; a node is numbered by its place there
and the centre comes last. -/
def TetrahedronOn (nodes : List Nat) (g : TetraGrid K) (t : Tri) (cell : List Nat) : Prop :=
  facesOf g.faces cell = .ok (faceNodes nodes.length (nodes.idxOf t.1, nodes.idxOf t.2.1, nodes.idxOf t.2.2))

omit [LinearOrder K] in
theorem fromCell_ok (points : Nat → Vec K) (faces : List (List Nat)) (tris : List Tri) (centre : Vec K) (nodes : List Nat)
    (hn : distinctNodes faces = .ok nodes) (h5 : 5 ≤ nodes.length) (hf : 4 ≤ faces.length) (he : 4 ≤ (distinctEdges faces).length)
    (ht : TrianglesOf faces tris) :
    ∃ (g : TetraGrid K) (ms : List Nat), fromCell points faces tris centre = .ok g ∧ g.points = nodes.map points ++ [centre] ∧ g.cells.length = tris.length ∧
      Once nodes.length g.faces ∧ (∀ t ∈ tris, t.1 ∈ nodes ∧ t.2.1 ∈ nodes ∧ t.2.2 ∈ nodes) ∧
      ms.length = tris.length ∧ ms.Pairwise (· < ·) ∧
      ∀ (i : Nat) (t : Tri) (m : Nat), tris[i]? = some t → ms[i]? = some m →
        ∃ cell, g.cells[i]? = some cell ∧ CellAt nodes.length g.faces (localTri nodes t) cell m := by
  obtain ⟨l, h1, -, h3⟩ := C119_distinct_nodes faces (by omega)
  rw [hn, Except.ok.injEq] at h1
  subst h1
  have hmt : ∀ t ∈ tris, t.1 ∈ nodes ∧ t.2.1 ∈ nodes ∧ t.2.2 ∈ nodes := by
    intro t htt
    obtain ⟨g1, g2, g3, -⟩ := ht.2 t htt
    exact ⟨(h3 _).mpr g1, (h3 _).mpr g2, (h3 _).mpr g3⟩
  obtain ⟨hnd, hmem⟩ := C119_distinct_edges faces
  have hme : ∀ e ∈ distinctEdges faces, e.1 ∈ nodes ∧ e.2 ∈ nodes := by
    rintro ⟨a, b⟩ hd
    obtain ⟨-, f, hff, hcase⟩ := (hmem a b).mp hd
    rw [h3, h3]
    rcases hcase with h | h
    · exact ⟨⟨f, hff, (isEdge_mem h).1⟩, ⟨f, hff, (isEdge_mem h).2⟩⟩
    · exact ⟨⟨f, hff, (isEdge_mem h).2⟩, ⟨f, hff, (isEdge_mem h).1⟩⟩
  obtain ⟨e, cells, g1, g2, g3, ms, g4, g5, -, g7⟩ := addTriangles_ok nodes tris _ hmt (edgeFaces_once hnd hme)
  refine ⟨⟨nodes.map points ++ [centre], _, cells⟩, ms, ?_, rfl, g2, g3, hmt, g4, g5, g7⟩
  unfold fromCell
  rw [hn, res_bind, if_neg (by omega), if_neg (by omega), if_neg (by omega), if_neg (by omega), edgeFaces_ok nodes _ hme, res_bind, g1, res_bind,
    if_neg ?_]
  · rfl
  · intro hc
    simp only at hc
    rw [hc, List.length_nil] at g2
    exact ht.1 (List.length_eq_zero_iff.mp g2.symm)

omit [LinearOrder K] in
/-- **C124** a cell with more than four nodes is divided into one tetrahedron for each triangle of its faces, with the centre of the cell as
fourth corner; the points of the grid of tetrahedra are the nodes of the cell in order, then the centre -/
theorem C124_divided (points : Nat → Vec K) (faces : List (List Nat)) (tris : List Tri) (centre : Vec K) (nodes : List Nat)
    (hn : distinctNodes faces = .ok nodes) (h5 : 5 ≤ nodes.length) (hf : 4 ≤ faces.length) (he : 4 ≤ (distinctEdges faces).length)
    (ht : TrianglesOf faces tris) :
    ∃ g, fromCell points faces tris centre = .ok g ∧ g.cells.length = tris.length ∧ g.points = nodes.map points ++ [centre] ∧
      ∀ (i : Nat) (t : Tri), tris[i]? = some t → ∃ cell, g.cells[i]? = some cell ∧ cell.length = 4 ∧ TetrahedronOn nodes g t cell := by
  obtain ⟨g, ms, h1, h2, h3, -, -, h5, -, h7⟩ := fromCell_ok points faces tris centre nodes hn h5 hf he ht
  refine ⟨g, h1, h3, h2, ?_⟩
  intro i t hi
  have hlt : i < ms.length := by
    rw [h5]; exact (List.getElem?_eq_some_iff.mp hi).1
  obtain ⟨cell, k1, k2⟩ := h7 i t ms[i] hi (List.getElem?_eq_getElem hlt)
  refine ⟨cell, k1, ?_, facesOf_cell k2⟩
  obtain ⟨p1, p2, p3, rfl, -⟩ := k2
  rfl

/-- the two ends of a side of a triangle: 1, 2 or 3 -/
def sideAt (t : Tri) : Nat → Nat × Nat
  | 1 => (t.1, t.2.1)
  | 2 => (t.2.1, t.2.2)
  | _ => (t.2.2, t.1)

/-- the same two ends -/
def SameEnds (d e : Nat × Nat) : Prop := d = e ∨ d = (e.2, e.1)

theorem minMax_eq (a b c d : Nat) : minMax a b = minMax c d ↔ (a = c ∧ b = d) ∨ (a = d ∧ b = c) := by
  unfold minMax
  split_ifs <;> simp only [Prod.mk.injEq] <;> omega

theorem cellAt_get {n : Nat} {faces : List Tri} {t : Tri} {cell : List Nat} {m d : Nat} (h : CellAt n faces t cell m) (hd : 1 ≤ d) (hd4 : d < 4) :
    ∃ p, cell[d]? = some p ∧ faces[p]? = some ((minMax (sideAt t d).1 (sideAt t d).2).1, (minMax (sideAt t d).1 (sideAt t d).2).2, n) := by
  obtain ⟨p1, p2, p3, rfl, h2, h3, h4, h5⟩ := h
  interval_cases d
  · exact ⟨p1, rfl, h3⟩
  · exact ⟨p2, rfl, h4⟩
  · exact ⟨p3, rfl, h5⟩

omit [LinearOrder K] in
/-- **C124** two tetrahedra share a face exactly when their triangles share a side: the same face number stands at place `d` of one and `d'` of
another only if it is the triangle of the same tetrahedron, or joins the same side to the centre -/
theorem C124_shared_faces (points : Nat → Vec K) (faces : List (List Nat)) (tris : List Tri) (centre : Vec K) (nodes : List Nat)
    (hn : distinctNodes faces = .ok nodes) (h5 : 5 ≤ nodes.length) (hf : 4 ≤ faces.length) (he : 4 ≤ (distinctEdges faces).length)
    (ht : TrianglesOf faces tris) (g : TetraGrid K) (hg : fromCell points faces tris centre = .ok g) (i j d d' : Nat) (t u : Tri)
    (c c' : List Nat) (hi : tris[i]? = some t) (hj : tris[j]? = some u) (hci : g.cells[i]? = some c) (hcj : g.cells[j]? = some c')
    (hd : d < 4) (hd' : d' < 4) :
    c[d]? = c'[d']? ↔ (d = 0 ∧ d' = 0 ∧ i = j) ∨ (1 ≤ d ∧ 1 ≤ d' ∧ SameEnds (sideAt t d) (sideAt u d')) := by
  obtain ⟨g', ms, h1, -, -, ho, hmem, h5, h6, h7⟩ := fromCell_ok points faces tris centre nodes hn h5 hf he ht
  rw [hg, Except.ok.injEq] at h1
  subst h1
  have hil := (List.getElem?_eq_some_iff.mp hi).1
  have hjl := (List.getElem?_eq_some_iff.mp hj).1
  obtain ⟨c1, k1, k2⟩ := h7 i t _ hi (List.getElem?_eq_getElem (by omega))
  obtain ⟨c2, k3, k4⟩ := h7 j u _ hj (List.getElem?_eq_getElem (by omega))
  rw [hci, Option.some.injEq] at k1
  rw [hcj, Option.some.injEq] at k3
  subst k1 k3
  have hti := hmem t (List.mem_of_getElem? hi)
  have huj := hmem u (List.mem_of_getElem? hj)
  have third : ∀ (x : Tri), (x.2.2 ∈ nodes) → (localTri nodes x).2.2 ≠ nodes.length := by
    intro x hx
    have := List.idxOf_lt_length_of_mem hx
    simp only [localTri]
    omega
  have zero : ∀ {t : Tri} {c : List Nat} {m : Nat}, CellAt nodes.length g.faces t c m → c[0]? = some m ∧ g.faces[m]? = some t := by
    rintro t c m ⟨p1, p2, p3, rfl, h2, -⟩
    exact ⟨rfl, h2⟩
  obtain ⟨z1, z2⟩ := zero k2
  obtain ⟨z3, z4⟩ := zero k4
  by_cases hd0 : d = 0
  · subst hd0
    rw [z1]
    by_cases hd0' : d' = 0
    · subst hd0'
      rw [z3, Option.some.injEq]
      constructor
      · intro h
        left
        refine ⟨rfl, rfl, ?_⟩
        have hnd : ms.Nodup := h6.imp (fun h => Nat.ne_of_lt h)
        exact (List.Nodup.getElem_inj_iff hnd).mp h
      · rintro (⟨-, -, rfl⟩ | h)
        · rfl
        · omega
    · obtain ⟨p, hp1, hp2⟩ := cellAt_get k4 (by omega : 1 ≤ d') hd'
      rw [hp1, Option.some.injEq]
      constructor
      · intro h
        rw [h, hp2, Option.some.injEq] at z2
        have := congrArg (fun x : Tri => x.2.2) z2
        exact absurd this.symm (third t hti.2.2)
      · omega
  · obtain ⟨p, hp1, hp2⟩ := cellAt_get k2 (by omega : 1 ≤ d) hd
    rw [hp1]
    by_cases hd0' : d' = 0
    · subst hd0'
      rw [z3, Option.some.injEq]
      constructor
      · intro h
        rw [← h, hp2, Option.some.injEq] at z4
        have := congrArg (fun x : Tri => x.2.2) z4
        exact absurd this.symm (third u huj.2.2)
      · omega
    · obtain ⟨q, hq1, hq2⟩ := cellAt_get k4 (by omega : 1 ≤ d') hd'
      rw [hq1, Option.some.injEq]
      have ends : ∀ (t : Tri) (d : Nat), (sideAt (localTri nodes t) d) = (nodes.idxOf (sideAt t d).1, nodes.idxOf (sideAt t d).2) := by
        intro t d
        unfold sideAt
        split <;> rfl
      have inN : ∀ (t : Tri) (d : Nat), t.1 ∈ nodes ∧ t.2.1 ∈ nodes ∧ t.2.2 ∈ nodes → (sideAt t d).1 ∈ nodes ∧ (sideAt t d).2 ∈ nodes := by
        intro t d h
        unfold sideAt
        split
        · exact ⟨h.1, h.2.1⟩
        · exact ⟨h.2.1, h.2.2⟩
        · exact ⟨h.2.2, h.1⟩
      rw [ends] at hp2 hq2
      simp only at hp2 hq2
      have i1 := inN t d hti
      have i2 := inN u d' huj
      have key : p = q ↔ minMax (nodes.idxOf (sideAt t d).1) (nodes.idxOf (sideAt t d).2) =
          minMax (nodes.idxOf (sideAt u d').1) (nodes.idxOf (sideAt u d').2) := by
        constructor
        · intro h
          rw [h, hq2, Option.some.injEq] at hp2
          simp only [Prod.mk.injEq, and_true] at hp2
          exact Prod.ext hp2.1.symm hp2.2.symm
        · intro h
          rw [h] at hp2
          exact ho p q _ _ hp2 hq2
      rw [key, minMax_eq]
      constructor
      · rintro (⟨e1, e2⟩ | ⟨e1, e2⟩)
        · exact Or.inr ⟨by omega, by omega, Or.inl (Prod.ext (idxOf_inj i1.1 i2.1 e1) (idxOf_inj i1.2 i2.2 e2))⟩
        · exact Or.inr ⟨by omega, by omega, Or.inr (Prod.ext (idxOf_inj i1.1 i2.2 e1) (idxOf_inj i1.2 i2.1 e2))⟩
      · rintro (h | ⟨-, -, h | h⟩)
        · omega
        · left; rw [h]; exact ⟨rfl, rfl⟩
        · right; rw [h]; exact ⟨rfl, rfl⟩

theorem volumes_sum [IsStrictOrderedRing K] (g : TetraGrid K) (v : Tri → K) : ∀ (tris : List Tri) (cells : List (List Nat)), cells.length = tris.length →
    (∀ (i : Nat) (t : Tri) (c : List Nat), tris[i]? = some t → cells[i]? = some c → tetraVolume g c = .ok (v t)) →
    volumes g cells = .ok ((tris.map v).sum)
  | [], [], _, _ => rfl
  | t :: ts, c :: cs, hl, h => by
    unfold volumes
    rw [h 0 t c rfl rfl, res_bind, volumes_sum g v ts cs (by simpa using hl) (fun i t c h1 h2 => h (i + 1) t c (by simpa using h1) (by simpa using h2)),
      res_bind]
    rfl
  | [], _ :: _, hl, _ => by simp at hl
  | _ :: _, [], hl, _ => by simp at hl

/-- **C124** the volume of a cell with more than four nodes is the sum of the volumes of the tetrahedra on the triangles of its faces, with the
centre as fourth corner -/
theorem C124_volume [IsStrictOrderedRing K] (points : Nat → Vec K) (faces : List (List Nat)) (tris : List Tri) (centre : Vec K) (nodes : List Nat)
    (hn : distinctNodes faces = .ok nodes) (h5 : 5 ≤ nodes.length) (hf : 4 ≤ faces.length) (he : 4 ≤ (distinctEdges faces).length)
    (ht : TrianglesOf faces tris) :
    cellVolume points faces tris centre =
      .ok ((tris.map fun t => tetrahedronVolume (points t.1) (points t.2.1) (points t.2.2) centre).sum) := by
  obtain ⟨g, ms, h1, h2, h3, -, hmem, k5, -, h7⟩ := fromCell_ok points faces tris centre nodes hn h5 hf he ht
  unfold cellVolume
  rw [h1, res_bind]
  refine volumes_sum g _ tris g.cells h3 ?_
  intro i t c hi hc
  have hil := (List.getElem?_eq_some_iff.mp hi).1
  obtain ⟨c', q1, q2⟩ := h7 i t ms[i] hi (List.getElem?_eq_getElem (by omega))
  rw [hc, Option.some.injEq] at q1
  subst q1
  have htm := List.mem_of_getElem? hi
  obtain ⟨m1, m2, m3⟩ := hmem t htm
  obtain ⟨-, -, -, d1, d2, d3⟩ := ht.2 t htm
  have pl : ∀ {a : Nat}, a ∈ nodes → nodes.idxOf a < nodes.length := fun h => List.idxOf_lt_length_of_mem h
  have hP : ∀ x, x ≤ nodes.length → g.points[x]? = some (((nodes.map points ++ [centre])[x]?).getD centre) := by
    intro x hx
    rw [h2]
    have : x < (nodes.map points ++ [centre]).length := by simp; omega
    rw [List.getElem?_eq_getElem this]
    rfl
  have := tetraVolume_cell g (fun x => ((nodes.map points ++ [centre])[x]?).getD centre) q2 hP (pl m1) (pl m2) (pl m3)
    (fun h => d1 (idxOf_inj m1 m2 h)) (fun h => d2 (idxOf_inj m2 m3 h)) (fun h => d3 (idxOf_inj m1 m3 h))
  rw [this]
  have at' : ∀ {a : Nat}, a ∈ nodes → ((nodes.map points ++ [centre])[nodes.idxOf a]?).getD centre = points a := by
    intro a ha
    have h := pl ha
    rw [List.getElem?_append_left (by simpa using h), List.getElem?_map, List.getElem?_eq_getElem h, List.getElem_idxOf]
    rfl
  have last : ((nodes.map points ++ [centre])[nodes.length]?).getD centre = centre := by simp
  simp only [at' m1, at' m2, at' m3, last]

/-- **C124** the volume of a cell with four nodes is that of the tetrahedron with these corners -/
theorem C124_tetrahedron [IsStrictOrderedRing K] (points : Nat → Vec K) (faces : List (List Nat)) (tris : List Tri) (centre : Vec K) (a b c d : Nat)
    (hn : distinctNodes faces = .ok [a, b, c, d]) (hf : faces.length = 4) :
    cellVolume points faces tris centre = .ok (tetrahedronVolume (points a) (points b) (points c) (points d)) := by
  unfold cellVolume fromCell
  rw [hn, res_bind, if_neg (by simp), if_neg (by omega), if_pos (by rfl), if_neg (by omega)]
  simp only [pure, Except.pure, res_bind, List.map_cons, List.map_nil, volumes, tetraVolume, facesOf, List.getElem?_cons_zero,
    List.getElem?_cons_succ]
  have : distinctNodes [[0, 1, 2], [0, 3, 1], [1, 3, 2], [2, 3, 0]] = .ok [0, 1, 2, 3] := by decide
  rw [this, res_bind]
  simp only [pointsOf, List.getElem?_cons_zero, List.getElem?_cons_succ, pure, Except.pure, res_bind, add_zero]

end Verif.Unstruct.Tetra
