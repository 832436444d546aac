import Verif.Unstruct.PropsTetra
import Mathlib.Algebra.BigOperators.Group.List.Basic
import Mathlib.Algebra.Order.BigOperators.Group.List
import Mathlib.Algebra.Field.Rat
import Mathlib.Data.List.Count
import Mathlib.Tactic.NormNum

/-!
# C124: what the volume of a cell divided into tetrahedra is
-/

namespace Verif.Unstruct.Tetra
open Verif.Py Verif.Unstruct
open Verif.Volume (Vec tetrahedronVolume pyramidVolume dot cross sub_def)

variable {K : Type} [Field K]

/-! ## the volume inside a closed surface -/

/-- six times the volume of the tetrahedron from a point to a triangle, with sign: the sign is positive on one side of the triangle -/
def six (points : Nat → Vec K) (o : Vec K) (t : Tri) : K :=
  dot (points t.1 - o) (cross (points t.2.1 - o) (points t.2.2 - o))

/-- the volume enclosed by a surface of triangles, counted from a point with sign -/
def signedVolume (points : Nat → Vec K) (o : Vec K) (us : List Tri) : K := (us.map (six points o)).sum / 6

/-- the sides of triangles in the direction in which they go round -/
def directed (us : List Tri) : List (Nat × Nat) := us.flatMap fun t => [(t.1, t.2.1), (t.2.1, t.2.2), (t.2.2, t.1)]

/-- the triangles form a closed surface and go round the same way: every side occurs as often in one direction as in the other -/
def Closed (us : List Tri) : Prop := ∀ a b, (directed us).count (a, b) = (directed us).count (b, a)

/-- the same triangle, the corners possibly in another order -/
def SameCorners (t u : Tri) : Prop := [t.1, t.2.1, t.2.2].Perm [u.1, u.2.1, u.2.2]

/-- one component: what moving the point changes -/
def shift (points : Nat → Vec K) (w : Vec K) (d : Nat × Nat) : K := dot w (cross (points d.1) (points d.2))

theorem six_shift (points : Nat → Vec K) (o o' : Vec K) (t : Tri) :
    six points o t = six points o' t + (shift points (o' - o) (t.1, t.2.1) + (shift points (o' - o) (t.2.1, t.2.2) + shift points (o' - o) (t.2.2, t.1))) := by
  simp only [six, shift, dot, cross, sub_def]
  ring

theorem sum_shift (points : Nat → Vec K) (o o' : Vec K) : ∀ us : List Tri,
    (us.map (six points o)).sum = (us.map (six points o')).sum + ((directed us).map (shift points (o' - o))).sum
  | [] => by simp [directed]
  | t :: us => by
    have ih := sum_shift points o o' us
    have hd : directed (t :: us) = [(t.1, t.2.1), (t.2.1, t.2.2), (t.2.2, t.1)] ++ directed us := rfl
    rw [List.map_cons, List.sum_cons, ih, six_shift points o o', hd, List.map_append, List.sum_append, List.map_cons, List.sum_cons]
    simp only [List.map_cons, List.map_nil, List.sum_cons, List.sum_nil]
    ring

theorem sum_neg' (f : Nat × Nat → K) (l : List (Nat × Nat)) : (l.map fun d => -f d).sum = -(l.map f).sum := by
  induction l with
  | nil => simp
  | cons a l ih => simp only [List.map_cons, List.sum_cons, ih]; ring

theorem closed_shift [CharZero K] (points : Nat → Vec K) (w : Vec K) {us : List Tri} (h : Closed us) :
    ((directed us).map (shift points w)).sum = 0 := by
  have hp : (directed us).Perm ((directed us).map Prod.swap) := by
    rw [List.perm_iff_count]
    rintro ⟨a, b⟩
    have : ((directed us).map Prod.swap).count (a, b) = (directed us).count (b, a) := by
      have := List.count_map_of_injective (directed us) Prod.swap Prod.swap_injective (b, a)
      exact this
    rw [this]
    exact h a b
  have h1 := (hp.map (shift points w)).sum_eq
  have h2 : ((directed us).map Prod.swap).map (shift points w) = (directed us).map fun d => - shift points w d := by
    rw [List.map_map]
    apply List.map_congr_left
    rintro ⟨a, b⟩ _
    simp only [Function.comp_apply, Prod.swap, shift, dot, cross]
    ring
  rw [h2, sum_neg'] at h1
  have h3 : (2 : K) * ((directed us).map (shift points w)).sum = 0 := by
    rw [two_mul]
    exact (eq_neg_iff_add_eq_zero.mp h1)
  rcases mul_eq_zero.mp h3 with h4 | h4
  · exact absurd h4 (by norm_num)
  · exact h4

/-- **C124** the volume enclosed by a closed surface does not depend on the point from which it is counted -/
theorem C124_enclosed [CharZero K] (points : Nat → Vec K) (us : List Tri) (h : Closed us) (o o' : Vec K) :
    signedVolume points o us = signedVolume points o' us := by
  unfold signedVolume
  rw [sum_shift points o o' us, closed_shift points _ h, add_zero]

variable [LinearOrder K] [IsStrictOrderedRing K]

theorem volume_six (points : Nat → Vec K) (o : Vec K) (t : Tri) :
    tetrahedronVolume (points t.1) (points t.2.1) (points t.2.2) o = |six points o t| / 6 := rfl

theorem perm_pair {a b y z : Nat} (h : [a, b].Perm [y, z]) : (a = y ∧ b = z) ∨ (b = y ∧ a = z) := by
  have hm := h.mem_iff (a := y)
  simp only [List.mem_cons, List.not_mem_nil, or_false, true_or, iff_true] at hm
  rcases hm with rfl | rfl
  · have := (List.perm_cons y).mp h
    exact Or.inl ⟨rfl, by simpa using this⟩
  · have := (List.perm_cons y).mp ((List.Perm.swap a y []).trans h)
    exact Or.inr ⟨rfl, by simpa using this⟩

theorem volume_corners (points : Nat → Vec K) (o : Vec K) {t u : Tri} (h : SameCorners t u) :
    tetrahedronVolume (points t.1) (points t.2.1) (points t.2.2) o = tetrahedronVolume (points u.1) (points u.2.1) (points u.2.2) o := by
  obtain ⟨a, b, c⟩ := t
  obtain ⟨x, y, z⟩ := u
  have h' : [a, b, c].Perm [x, y, z] := h
  have hm := h'.mem_iff (a := x)
  simp only [List.mem_cons, List.not_mem_nil, or_false, true_or, iff_true] at hm
  simp only
  rcases hm with rfl | rfl | rfl
  · have h2 := (List.perm_cons x).mp h'
    rcases perm_pair h2 with ⟨rfl, rfl⟩ | ⟨rfl, rfl⟩
    · rfl
    · exact (volume_swap23 _ _ _ _).symm
  · have h2 : [a, c].Perm [y, z] := (List.perm_cons x).mp ((List.Perm.swap a x [c]).trans h')
    rw [← volume_swap12]
    rcases perm_pair h2 with ⟨rfl, rfl⟩ | ⟨rfl, rfl⟩
    · rfl
    · exact (volume_swap23 _ _ _ _).symm
  · have h1 : [x, a, b].Perm [a, b, x] := by
      have : ([a, b] ++ [x]).Perm ([x] ++ [a, b]) := List.perm_append_comm
      exact this.symm
    have h2 : [a, b].Perm [y, z] := (List.perm_cons x).mp (h1.trans h')
    rw [← volume_swap23, ← volume_swap12]
    rcases perm_pair h2 with ⟨rfl, rfl⟩ | ⟨rfl, rfl⟩
    · rfl
    · exact (volume_swap23 _ _ _ _).symm

theorem volume_oriented (points : Nat → Vec K) (o : Vec K) : ∀ {ts us : List Tri}, List.Forall₂ SameCorners ts us →
    (ts.map fun t => tetrahedronVolume (points t.1) (points t.2.1) (points t.2.2) o).sum = (us.map fun u => |six points o u| / 6).sum
  | [], [], _ => rfl
  | t :: ts, u :: us, h => by
    cases h with
    | cons h1 h2 =>
      rw [List.map_cons, List.sum_cons, List.map_cons, List.sum_cons, volume_oriented points o h2, volume_corners points o h1, volume_six]

/-- the conditions on a cell which is divided: at least five nodes, four faces and four edges -/
def Dividable (faces : List (List Nat)) : Prop :=
  4 ≤ faces.length ∧ 4 ≤ (distinctEdges faces).length ∧ ∃ nodes, distinctNodes faces = .ok nodes ∧ 5 ≤ nodes.length

/-- **C124** if the triangles of the faces, each taken round the right way, form a closed surface and the centre is on the inner side of all of
them, the volume of the cell is the volume enclosed by the surface -/
theorem C124_enclosed_volume_partial (points : Nat → Vec K) (faces : List (List Nat)) (tris us : List Tri) (centre o : Vec K) (hc : Dividable faces)
    (ht : TrianglesOf faces tris) (hu : List.Forall₂ SameCorners tris us) (hcl : Closed us) (hs : ∀ u ∈ us, 0 ≤ six points centre u) :
    cellVolume points faces tris centre = .ok (signedVolume points o us) := by
  obtain ⟨h1, h2, nodes, h3, h4⟩ := hc
  rw [C124_volume points faces tris centre nodes h3 h4 h1 h2 ht, volume_oriented points centre hu, C124_enclosed points us hcl o centre]
  unfold signedVolume
  congr 1
  clear hu hcl
  induction us with
  | nil => simp
  | cons u us ih =>
    rw [List.map_cons, List.sum_cons, ih (fun v hv => hs v (by simp [hv])), List.map_cons, List.sum_cons, abs_of_nonneg (hs u (by simp))]
    ring

/-- **C124** whatever the shape, the volume returned is never less than the volume enclosed by the surface -/
theorem C124_at_least_enclosed (points : Nat → Vec K) (faces : List (List Nat)) (tris us : List Tri) (centre o : Vec K) (hc : Dividable faces)
    (ht : TrianglesOf faces tris) (hu : List.Forall₂ SameCorners tris us) (hcl : Closed us) :
    ∃ v, cellVolume points faces tris centre = .ok v ∧ |signedVolume points o us| ≤ v := by
  obtain ⟨h1, h2, nodes, h3, h4⟩ := hc
  refine ⟨_, C124_volume points faces tris centre nodes h3 h4 h1 h2 ht, ?_⟩
  rw [volume_oriented points centre hu, C124_enclosed points us hcl o centre]
  unfold signedVolume
  clear hu hcl
  rw [abs_div, abs_of_pos (show (0 : K) < 6 by norm_num)]
  have key : |(us.map (six points centre)).sum| ≤ (us.map fun u => |six points centre u|).sum := by
    induction us with
    | nil => simp
    | cons u us ih =>
      rw [List.map_cons, List.sum_cons, List.map_cons, List.sum_cons]
      exact (abs_add_le _ _).trans (add_le_add (le_refl _) ih)
  have e : (us.map fun u => |six points centre u| / 6).sum = (us.map fun u => |six points centre u|).sum / 6 := by
    clear key
    induction us with
    | nil => simp
    | cons u us ih => rw [List.map_cons, List.sum_cons, ih, List.map_cons, List.sum_cons]; ring
  rw [e]
  exact div_le_div_of_nonneg_right key (by norm_num)

/-! ## a cell with a hollow -/

/-- a triangle, a point above it and another point a little lower: the cell between the two roofs -/
def hollowPoints (n : Nat) : Vec ℚ :=
  match n with
  | 0 => ⟨0, 0, 0⟩
  | 1 => ⟨3, 0, 0⟩
  | 2 => ⟨0, 3, 0⟩
  | 3 => ⟨1, 1, 6⟩
  | _ => ⟨1, 1, 5⟩

/-- its faces: three of the upper roof and three of the lower -/
def hollowFaces : List (List Nat) := [[0, 1, 3], [1, 2, 3], [2, 0, 3], [1, 0, 4], [2, 1, 4], [0, 2, 4]]

/-- its triangles -/
def hollowTris : List Tri := [(0, 1, 3), (1, 2, 3), (2, 0, 3), (1, 0, 4), (2, 1, 4), (0, 2, 4)]

theorem hollow_closed : Closed hollowTris := by
  intro a b
  by_cases h : a ≤ 4 ∧ b ≤ 4
  · obtain ⟨h1, h2⟩ := h
    interval_cases a <;> interval_cases b <;> rfl
  · have key : ∀ x y, (5 ≤ x ∨ 5 ≤ y) → (directed hollowTris).count (x, y) = 0 := by
      intro x y hxy
      rw [List.count_eq_zero]
      intro hm
      have : ∀ d ∈ directed hollowTris, d.1 ≤ 4 ∧ d.2 ≤ 4 := by decide
      have := this _ hm
      simp only at this
      omega
    rw [key a b (by omega), key b a (by omega)]

theorem hollow_dividable : Dividable hollowFaces := by
  refine ⟨by decide, by decide, [0, 1, 2, 3, 4], by decide, by decide⟩

theorem hollow_tris : TrianglesOf hollowFaces hollowTris := by
  refine ⟨by decide, ?_⟩
  decide

/-- **C124** the volume of a cell with a hollow is too large: the cell between two roofs on one triangle has volume 3/2, but as the centre, the
mean of the centres of the faces, is not inside, 11 is returned -/
theorem C124_hollow_violated :
    Dividable hollowFaces ∧ TrianglesOf hollowFaces hollowTris ∧ Closed hollowTris ∧
    (∀ o : Vec ℚ, signedVolume hollowPoints o hollowTris = 3 / 2) ∧
    cellVolume hollowPoints hollowFaces hollowTris (cellCentre hollowPoints hollowFaces) = .ok 11 := by
  refine ⟨hollow_dividable, hollow_tris, hollow_closed, ?_, ?_⟩
  · intro o
    rw [C124_enclosed hollowPoints hollowTris hollow_closed o ⟨0, 0, 0⟩]
    decide +kernel
  · rw [C124_volume hollowPoints hollowFaces hollowTris _ [0, 1, 2, 3, 4] (by decide) (by decide) (by decide) (by decide) hollow_tris]
    congr 1
    simp only [hollowTris, hollowFaces, cellCentre, mean, hollowPoints, tetrahedronVolume, dot, cross, sub_def, List.map_cons, List.map_nil,
      List.sum_cons, List.sum_nil, List.length_cons, List.length_nil]
    norm_num

end Verif.Unstruct.Tetra
